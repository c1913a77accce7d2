import Verif.Proofs.Meta
/-! # Lemmas about signedness and rank of types -/
namespace Verif.Proofs.MetaNumbers
open Verif.Spec.CppTypes Verif.Model.Meta Verif.Proofs.Meta

theorem sign_make (f : Base → Base) (k : Ref) (q : CV) (b : Base) (hr : Refers k (.base {} b)) :
    sign f (make k q (.base {} b)) = make k q (.base {} (f b)) := by
  have a : ∀ b : Base, addLvalueReference (.base q b) = make .l q (.base {} b) := fun b => addL_qualify q (.base {} b) rfl
  have c : ∀ b : Base, addRvalueReference (.base q b) = make .r q (.base {} b) := fun b => addR_qualify q (.base {} b) rfl
  cases k with
  | none => rw [make_none, make_none]; rfl
  | l => rw [make_l _ _ (hr.resolve_left (by simp)), ← a]; rfl
  | r => rw [make_r _ _ (hr.resolve_left (by simp)), ← c]; rfl

theorem below_trans (x y z : Arith) (h : x ∈ y.below) (h' : y ∈ z.below) : x ∈ z.below := by
  revert h h'
  cases x <;> cases y <;> cases z <;> decide

theorem below_refl (x : Arith) : x ∈ x.below := by cases x <;> decide

theorem below_antisymm (x y : Arith) (h : x ∈ y.below) (h' : y ∈ x.below) : x = y := by
  revert h h'
  cases x <;> cases y <;> decide

/-- The type of a sum of two. -/
def join (x y : Arith) : Arith :=
  if x ∈ y.below then y else if y ∈ x.below then x else .ullong

theorem join_type (x y : Arith) : common x.type y.type = (join x y).type := by cases x <;> cases y <;> rfl

theorem join_least (x y w : Arith) : join x y ∈ w.below ↔ x ∈ w.below ∧ y ∈ w.below := by
  cases x <;> cases y <;> cases w <;> decide

theorem sum_unique (z z' : Arith) (l : List Arith) (h : z.IsSum l) (h' : z'.IsSum l) : z = z' :=
  below_antisymm _ _ (h.2 _ h'.1) (h'.2 _ h.1)

theorem promote_type (P : Platform) (b : Base) (x : Arith) (h : promotion P b = some x) : promote P b = x.type := by
  revert h
  rcases P with ⟨c, w, y⟩
  cases b <;> cases w <;> cases y <;> simp [promotion, promote] <;> rintro rfl <;> rfl

theorem promotion_type (P : Platform) (x : Arith) : promotion P x.type = some x := by cases x <;> rfl

/-- Two types: the type of the sum, or a type that is promoted to the same. -/
theorem highest2_sum (P : Platform) (a b : Base) (x y : Arith) (ha : promotion P a = some x) (hb : promotion P b = some y) :
    ∃ h, highest2 P a b = some h ∧ promotion P h = some (join x y) ∧ (h = (join x y).type ∨ a ≠ x.type ∧ b ≠ y.type) := by
  have va : a ≠ .void := by rintro rfl; simp [promotion] at ha
  have vb : b ≠ .void := by rintro rfl; simp [promotion] at hb
  have pa := promote_type P a x ha
  have pb := promote_type P b y hb
  by_cases e : a = b
  · subst e
    obtain rfl : x = y := by rw [ha] at hb; injection hb
    refine ⟨a, by simp [highest2, va], by rw [ha]; simp [join, below_refl], ?_⟩
    by_cases h : a = x.type
    · left
      rw [h]
      simp [join, below_refl]
    · exact .inr ⟨h, h⟩
  · have hh : ∀ h, highest2 P a b = some h → h = common (promote P a) (promote P b) ∨
        (h ∈ [Base.short, .ushort] ∧ a ∈ [Base.schar, .short, .uchar, .ushort] ∧ b ∈ [Base.schar, .short, .uchar, .ushort]) := by
      intro h
      unfold highest2
      simp only [va, vb, e, false_and, if_false]
      split <;> intro hs
      all_goals first
        | (simp [promotion] at ha hb; done)
        | (injection hs with hs; subst hs; right; simp; done)
        | (injection hs with hs; left; exact hs.symm)
    have hex : ∃ h, highest2 P a b = some h := by
      unfold highest2
      simp only [va, vb, e, false_and, if_false]
      split <;> exact ⟨_, rfl⟩
    obtain ⟨h, hs⟩ := hex
    refine ⟨h, hs, ?_⟩
    rcases hh h hs with rfl | ⟨h1, h2, h3⟩
    · rw [pa, pb, join_type]
      exact ⟨promotion_type P _, .inl rfl⟩
    · have small : ∀ c ∈ [Base.schar, .short, .uchar, .ushort], ∀ z, promotion P c = some z → z = .int ∧ c ≠ z.type := by
        intro c hc z hz
        simp only [List.mem_cons, List.not_mem_nil, or_false] at hc
        rcases hc with rfl | rfl | rfl | rfl <;> simp only [promotion, Option.some.injEq] at hz <;> subst hz <;> simp [Arith.type]
      obtain ⟨rfl, sa⟩ := small a h2 x ha
      obtain ⟨rfl, sb⟩ := small b h3 y hb
      refine ⟨?_, .inr ⟨sa, sb⟩⟩
      simp only [List.mem_cons, List.not_mem_nil, or_false] at h1
      rcases h1 with rfl | rfl <;> rfl

/-- The standard integral types. -/
def wholes : List Base :=
  [.bool, .char, .wchar, .char8, .char16, .char32, .schar, .short, .int, .long, .llong, .uchar, .ushort, .uint, .ulong, .ullong]

theorem whole_iff (b : Base) : b.Whole ↔ b ∈ wholes := by
  cases b <;> simp [Base.Whole, Base.Character, Base.Integer, wholes]

theorem highest2_size (P : Platform) (a b : Base) (ha : a ∈ wholes) (hb : b ∈ wholes) :
    ∃ c, highest2 P a b = some c ∧ c.Whole ∧ a.bits P ≤ c.bits P ∧ b.bits P ≤ c.bits P := by
  have all : ∀ c w x : Bool, ∀ a ∈ wholes, ∀ b ∈ wholes,
      ((highest2 ⟨c, w, x⟩ a b).any fun d => decide (d ∈ wholes) && decide (a.bits ⟨c, w, x⟩ ≤ d.bits ⟨c, w, x⟩) &&
        decide (b.bits ⟨c, w, x⟩ ≤ d.bits ⟨c, w, x⟩)) = true := by
    decide +kernel
  have := all P.charSigned P.wcharSigned P.wchar32 a ha b hb
  rw [Option.any_eq_true] at this
  obtain ⟨d, hd, h⟩ := this
  simp only [Bool.and_eq_true, decide_eq_true_eq] at h
  exact ⟨d, hd, (whole_iff d).2 h.1.1, h.1.2, h.2⟩

end Verif.Proofs.MetaNumbers
