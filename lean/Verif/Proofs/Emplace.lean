import Verif.Model.Emplace
/-! Lemmas about the model of emplacement_array. -/
namespace Verif.Proofs.Emplace
open Verif.Spec.Emplace Verif.Model.Emplace

theorem put_same {α : Type} (v : Nat → Option α) (i : Nat) (x : Option α) : put v i x i = x := by simp [put]
theorem put_ne {α : Type} (v : Nat → Option α) {i k : Nat} (x : Option α) (h : k ≠ i) : put v i x k = v k := by
  simp [put, h]
theorem put_put {α : Type} (v : Nat → Option α) (i : Nat) (x y : Option α) : put (put v i x) i y = put v i y := by
  funext k; simp only [put]; split <;> rfl

abbrev Blocks := Nat → Option (List (Option Nat))

/-- an array object together with its memory represents `x` -/
def Own (m : Blocks) (a : Model.Emplace.Array) (x : Arr) : Prop :=
  a.count = x.elems.length ∧ a.capacity = x.cap ∧ x.elems.length ≤ x.cap ∧
  ((x.cap = 0 ∧ a.storage = none) ∨
   (x.cap ≠ 0 ∧ ∃ p, a.storage = some p ∧
      m p = some (x.elems.map some ++ List.replicate (x.cap - x.elems.length) none)))

theorem destroyed_concat (l : List Nat) (e : Nat) : destroyed (l ++ [e]) = .gone e :: destroyed l := by
  simp [destroyed]

theorem destroyLoop_spec (w : World) (p : Nat) (elems : List Nat) (n : Nat) (hn : elems.length = n) (rest : List (Option Nat))
    (h : w.block p = some (elems.map some ++ rest)) :
    w.destroyLoop p n = some { w with block := put w.block p (some (List.replicate n none ++ rest)),
                                      log := w.log ++ destroyed elems } := by
  induction n generalizing w elems rest with
  | zero =>
    obtain rfl := List.eq_nil_of_length_eq_zero hn
    simp only [World.destroyLoop, destroyed, List.reverse_nil, List.map_nil, List.append_nil, List.replicate_zero,
      List.nil_append]
    have : put w.block p (some rest) = w.block := by
      funext k; simp only [put]; split
      · rename_i e; subst e; simpa using h.symm
      · rfl
    rw [this]
  | succ n ih =>
    obtain ⟨l, e, rfl⟩ : ∃ l e, elems = l ++ [e] := by
      refine ⟨elems.dropLast, elems.getLast (by intro h0; simp [h0] at hn), ?_⟩
      rw [List.dropLast_concat_getLast]
    have hl : l.length = n := by simpa using hn
    have h1 : w.destroyAt p n = some { w with block := put w.block p (some (l.map some ++ none :: rest)),
                                               log := w.log ++ [.gone e] } := by
      have hget : (l.map some ++ (some e :: rest))[n]? = some (some e) := by
        rw [List.getElem?_append_right (by simp; omega)]
        simp [hl]
      have hset : (l.map some ++ (some e :: rest)).set n none = l.map some ++ none :: rest := by
        rw [List.set_append_right _ _ (by simp; omega)]
        simp [hl]
      simp only [World.destroyAt, h, List.map_append, List.map_cons, List.map_nil, List.append_assoc, List.cons_append,
        List.nil_append, hget, hset]
    simp only [World.destroyLoop, h1]
    rw [ih _ l hl (none :: rest) (put_same _ _ _)]
    simp only [put_put, destroyed_concat, List.append_assoc, List.cons_append, List.nil_append, List.replicate_succ']

theorem destroyAll_spec (w : World) (a : Model.Emplace.Array) (x : Arr) (h : Own w.block a x) :
    ∃ m, w.destroyAll a = some ({ w with block := m, log := w.log ++ destroyed x.elems }, { a with count := 0 }) ∧
      Own m { a with count := 0 } ⟨[], x.cap⟩ ∧ ∀ q, a.storage ≠ some q → m q = w.block q := by
  obtain ⟨h1, h2, h3, h4 | ⟨h4, p, h5, h6⟩⟩ := h
  · have hx : x.elems = [] := List.eq_nil_of_length_eq_zero (by omega)
    refine ⟨w.block, ?_, ⟨rfl, h2, by simp, .inl ⟨h4.1, h4.2⟩⟩, fun _ _ => rfl⟩
    unfold World.destroyAll
    rw [h4.2]
    simp [h1, hx, destroyed, h4.2]
  · refine ⟨put w.block p (some (List.replicate a.count none ++ List.replicate (x.cap - x.elems.length) none)), ?_, ?_, ?_⟩
    · unfold World.destroyAll
      rw [h5]
      simp only [destroyLoop_spec w p x.elems a.count h1.symm _ h6, h5]
    · refine ⟨rfl, h2, by simp, .inr ⟨h4, p, h5, ?_⟩⟩
      rw [put_same]
      simp only [List.map_nil, List.nil_append, List.length_nil, Nat.sub_zero, List.replicate_append_replicate]
      rw [h1, show x.elems.length + (x.cap - x.elems.length) = x.cap by omega]
    · intro q hq
      exact put_ne _ _ (fun e => hq (by rw [h5, e]))

theorem release_spec (w : World) (a : Model.Emplace.Array) (x : Arr) (h : Own w.block a x) :
    ∃ m a', w.release a = some ({ w with block := m, log := w.log ++ destroyed x.elems }, a') ∧
      a'.count = 0 ∧ a'.storage = none ∧
      (∀ q, a.storage ≠ some q → m q = w.block q) ∧ ∀ q, a.storage = some q → m q = none := by
  obtain ⟨m, g1, g2, g3⟩ := destroyAll_spec w a x h
  obtain ⟨h1, h2, h3, h4 | ⟨h4, p, h5, h6⟩⟩ := h
  · have hx : x.elems = [] := List.eq_nil_of_length_eq_zero (by omega)
    refine ⟨w.block, a, ?_, by rw [h1, hx]; rfl, h4.2, fun _ _ => rfl, fun q hq => by rw [h4.2] at hq; simp at hq⟩
    unfold World.release
    rw [h4.2]
    simp [hx, destroyed]
  · have hp : m p ≠ none := by
      obtain ⟨_, _, _, k | ⟨_, q, k1, k2⟩⟩ := g2
      · exact absurd k.1 h4
      · simp only [h5, Option.some.injEq] at k1
        subst k1; rw [k2]; simp
    obtain ⟨bl, hbl⟩ := Option.ne_none_iff_exists'.mp hp
    refine ⟨put m p none, { a with count := 0, storage := none }, ?_, rfl, rfl, ?_, ?_⟩
    · unfold World.release
      rw [h5]
      simp only [g1, hbl]
    · intro q hq
      rw [put_ne _ _ (fun e => hq (by rw [h5, e]))]
      exact g3 q hq
    · intro q hq
      rw [h5, Option.some.injEq] at hq
      subst hq
      exact put_same _ _ _

/-- memory and array objects represent the arrays of the specification -/
structure P (m : Blocks) (next : Nat) (arr : Nat → Option Model.Emplace.Array) (v : Nat → Option Arr) : Prop where
  dom : ∀ i, arr i = none ↔ v i = none
  own : ∀ i a x, arr i = some a → v i = some x → Own m a x
  sep : ∀ i j a b p, arr i = some a → arr j = some b → a.storage = some p → b.storage = some p → i = j
  live : ∀ p, m p ≠ none → ∃ i a, arr i = some a ∧ a.storage = some p
  fresh : ∀ p, next ≤ p → m p = none

theorem own_lt {m : Blocks} {next : Nat} (hf : ∀ p, next ≤ p → m p = none) {a : Model.Emplace.Array} {x : Arr} (h : Own m a x)
    {p : Nat} (hp : a.storage = some p) : p < next := by
  obtain ⟨_, _, _, k | ⟨_, q, k1, k2⟩⟩ := h
  · rw [k.2] at hp; simp at hp
  · rw [hp, Option.some.injEq] at k1
    subst k1
    rcases Nat.lt_or_ge p next with h | h
    · exact h
    · rw [hf p h] at k2; simp at k2

theorem own_frame {m m' : Blocks} {a : Model.Emplace.Array} {x : Arr} (h : Own m a x)
    (hf : ∀ q, a.storage = some q → m' q = m q) : Own m' a x := by
  obtain ⟨h1, h2, h3, h4⟩ := h
  refine ⟨h1, h2, h3, h4.imp id ?_⟩
  rintro ⟨k1, p, k2, k3⟩
  exact ⟨k1, p, k2, by rw [hf p k2]; exact k3⟩

/-- storing a new array object in variable `i` -/
theorem P_store {m m' : Blocks} {next next' : Nat} {arr v} (h : P m next arr v) (i : Nat) (old : Option Nat)
    (hold : (arr i = none ∧ old = none) ∨ ∃ a, arr i = some a ∧ a.storage = old) (a' : Model.Emplace.Array) (x' : Arr)
    (hframe : ∀ q, old ≠ some q → a'.storage ≠ some q → m' q = m q)
    (hnew : a'.storage = old ∨ ∀ q, a'.storage = some q → next ≤ q)
    (hgone : a'.storage ≠ old → ∀ q, old = some q → m' q = none)
    (hfresh : ∀ p, next' ≤ p → m' p = none) (hown : Own m' a' x') :
    P m' next' (put arr i (some a')) (put v i (some x')) := by
  have hsome : ∀ {j a}, arr j = some a → ∃ x, v j = some x := by
    intro j a ha
    cases hv : v j with
    | none => rw [(h.dom j).mpr hv] at ha; simp at ha
    | some x => exact ⟨x, rfl⟩
  -- another variable's memory is neither the old nor the new memory of `i`
  have key : ∀ k b q, k ≠ i → arr k = some b → b.storage = some q → old ≠ some q ∧ a'.storage ≠ some q := by
    intro k b q hk hb hq
    have ho : old ≠ some q := by
      rintro rfl
      rcases hold with h1 | ⟨a, h1, h2⟩
      · simp at h1
      · exact hk (h.sep k i b a q hb h1 hq h2)
    refine ⟨ho, fun e => ?_⟩
    rcases hnew with h1 | h1
    · rw [h1] at e; exact ho e
    · obtain ⟨x, hx⟩ := hsome hb
      have := own_lt h.fresh (h.own k b x hb hx) hq
      have := h1 q e
      omega
  refine ⟨?_, ?_, ?_, ?_, hfresh⟩
  · intro k
    by_cases e : k = i
    · subst e; simp [put_same]
    · simp only [put_ne _ _ e]; exact h.dom k
  · intro k b y hb hy
    by_cases e : k = i
    · subst e
      rw [put_same] at hb hy
      obtain rfl := Option.some.inj hb
      obtain rfl := Option.some.inj hy
      exact hown
    · rw [put_ne _ _ e] at hb hy
      refine own_frame (h.own k b y hb hy) (fun q hq => ?_)
      obtain ⟨h1, h2⟩ := key k b q e hb hq
      exact hframe q h1 h2
  · intro j k b c q hb hc hbq hcq
    by_cases e1 : j = i <;> by_cases e2 : k = i
    · rw [e1, e2]
    · rw [e1, put_same] at hb; obtain rfl := Option.some.inj hb
      rw [put_ne _ _ e2] at hc
      exact absurd hbq (key k c q e2 hc hcq).2
    · rw [e2, put_same] at hc; obtain rfl := Option.some.inj hc
      rw [put_ne _ _ e1] at hb
      exact absurd hcq (key j b q e1 hb hbq).2
    · rw [put_ne _ _ e1] at hb
      rw [put_ne _ _ e2] at hc
      exact h.sep j k b c q hb hc hbq hcq
  · intro q hq
    by_cases hn : a'.storage = some q
    · exact ⟨i, a', put_same _ _ _, hn⟩
    · have ho : old ≠ some q := by
        intro e
        by_cases h1 : a'.storage = old
        · rw [h1] at hn; exact hn e
        · exact hq (hgone h1 q e)
      rw [hframe q ho hn] at hq
      obtain ⟨k, b, h1, h2⟩ := h.live q hq
      have e : k ≠ i := by
        rintro rfl
        rcases hold with h3 | ⟨a, h3, h4⟩
        · rw [h3.1] at h1; simp at h1
        · rw [h1, Option.some.injEq] at h3; subst h3; exact ho (h4 ▸ h2)
      exact ⟨k, b, by rw [put_ne _ _ e]; exact h1, h2⟩

/-- destroying the array object in variable `i` -/
theorem P_drop {m m' : Blocks} {next : Nat} {arr v} (h : P m next arr v) (i : Nat) (a : Model.Emplace.Array) (ha : arr i = some a)
    (hframe : ∀ q, a.storage ≠ some q → m' q = m q) (hgone : ∀ q, a.storage = some q → m' q = none) :
    P m' next (put arr i none) (put v i none) := by
  refine ⟨?_, ?_, ?_, ?_, ?_⟩
  · intro k
    by_cases e : k = i
    · subst e; simp [put_same]
    · simp only [put_ne _ _ e]; exact h.dom k
  · intro k b y hb hy
    have e : k ≠ i := by rintro rfl; simp [put_same] at hb
    rw [put_ne _ _ e] at hb hy
    exact own_frame (h.own k b y hb hy) (fun q hq => hframe q (fun h1 => e (h.sep k i b a q hb ha hq h1)))
  · intro j k b c q hb hc
    have e1 : j ≠ i := by rintro rfl; simp [put_same] at hb
    have e2 : k ≠ i := by rintro rfl; simp [put_same] at hc
    rw [put_ne _ _ e1] at hb
    rw [put_ne _ _ e2] at hc
    exact h.sep j k b c q hb hc
  · intro q hq
    have hn : a.storage ≠ some q := fun e => hq (hgone q e)
    rw [hframe q hn] at hq
    obtain ⟨k, b, h1, h2⟩ := h.live q hq
    have e : k ≠ i := by rintro rfl; rw [ha, Option.some.injEq] at h1; subst h1; exact hn h2
    exact ⟨k, b, by rw [put_ne _ _ e]; exact h1, h2⟩
  · intro p hp
    by_cases e : a.storage = some p
    · exact hgone p e
    · rw [hframe p e]; exact h.fresh p hp

/-- moving the array of `j` to the unused variable `i` -/
theorem P_move {m : Blocks} {next : Nat} {arr v} (h : P m next arr v) {i j : Nat} {b : Model.Emplace.Array} {y : Arr} (hij : i ≠ j)
    (hi : arr i = none) (hj : arr j = some b) (hv : v j = some y) :
    P m next (put (put arr i (some ⟨b.count, b.capacity, b.storage⟩)) j (some ⟨0, 0, none⟩))
      (put (put v i (some y)) j (some ⟨[], 0⟩)) := by
  have hb' : (⟨b.count, b.capacity, b.storage⟩ : Model.Emplace.Array) = b := rfl
  rw [hb']
  have key : ∀ k d p, put (put arr i (some b)) j (some ⟨0, 0, none⟩) k = some d → d.storage = some p →
      (k = i ∧ d = b) ∨ (k ≠ i ∧ k ≠ j ∧ arr k = some d) := by
    intro k d p h1 h2
    by_cases e1 : k = j
    · subst e1; rw [put_same] at h1; obtain rfl := Option.some.inj h1; simp at h2
    · rw [put_ne _ _ e1] at h1
      by_cases e2 : k = i
      · subst e2; rw [put_same] at h1; exact .inl ⟨rfl, (Option.some.inj h1).symm⟩
      · rw [put_ne _ _ e2] at h1; exact .inr ⟨e2, e1, h1⟩
  refine ⟨?_, ?_, ?_, ?_, h.fresh⟩
  · intro k
    by_cases e1 : k = j
    · subst e1; simp [put_same]
    · simp only [put_ne _ _ e1]
      by_cases e2 : k = i
      · subst e2; simp [put_same]
      · simp only [put_ne _ _ e2]; exact h.dom k
  · intro k d z h1 h2
    by_cases e1 : k = j
    · subst e1
      rw [put_same] at h1 h2
      obtain rfl := Option.some.inj h1
      obtain rfl := Option.some.inj h2
      exact ⟨rfl, rfl, Nat.le_refl _, .inl ⟨rfl, rfl⟩⟩
    · rw [put_ne _ _ e1] at h1 h2
      by_cases e2 : k = i
      · subst e2
        rw [put_same] at h1 h2
        obtain rfl := Option.some.inj h1
        obtain rfl := Option.some.inj h2
        exact h.own j b y hj hv
      · rw [put_ne _ _ e2] at h1 h2
        exact h.own k d z h1 h2
  · intro k n d e p h1 h2 h3 h4
    rcases key k d p h1 h3 with ⟨a1, a2⟩ | ⟨a1, a2, a3⟩ <;> rcases key n e p h2 h4 with ⟨b1, b2⟩ | ⟨b1, b2, b3⟩
    · rw [a1, b1]
    · rw [a2] at h3
      exact absurd (h.sep n j e b p b3 hj h4 h3) b2
    · rw [b2] at h4
      exact absurd (h.sep k j d b p a3 hj h3 h4) a2
    · exact h.sep k n d e p a3 b3 h3 h4
  · intro p hp
    obtain ⟨k, d, h1, h2⟩ := h.live p hp
    by_cases e : k = j
    · subst e
      rw [hj] at h1; obtain rfl := Option.some.inj h1
      exact ⟨i, b, by simp only [put_ne _ _ hij, put_same], h2⟩
    · have e2 : k ≠ i := by rintro rfl; rw [hi] at h1; simp at h1
      exact ⟨k, d, by simp only [put_ne _ _ e, put_ne _ _ e2]; exact h1, h2⟩

/-- the model's state represents the specification's -/
structure R (w : World) (s : State) : Prop where
  mem : P w.block w.next w.arr s.arr
  log : w.log = s.log
  made : w.made = s.count

theorem step_spec {w : World} {s s' : State} (hR : R w s) (o : Op) (h : o.apply s = some s') :
    ∃ w', w.step o = some w' ∧ R w' s' := by
  obtain ⟨hP, hlog, hmade⟩ := hR
  have hsome : ∀ {j y}, s.arr j = some y → ∃ a, w.arr j = some a := by
    intro j y h
    cases hb : w.arr j with
    | none => rw [(hP.dom j).mp hb] at h; simp at h
    | some c => exact ⟨c, rfl⟩
  cases o with
  | construct i cap =>
    simp only [Op.apply] at h
    split at h
    · simp at h
    · rename_i h0
      obtain rfl := Option.some.inj h
      have hi := (hP.dom i).mpr h0
      refine ⟨{ (w.construct cap).1 with arr := put w.arr i (some (w.construct cap).2) },
        by simp only [World.step, hi], ?_⟩
      by_cases hc : cap = 0
      · subst hc
        refine ⟨?_, hlog, hmade⟩
        exact P_store hP i none (.inl ⟨hi, rfl⟩) _ _ (fun _ _ _ => rfl) (.inl rfl) (fun e => absurd rfl e) hP.fresh
          ⟨rfl, rfl, Nat.le_refl _, .inl ⟨rfl, rfl⟩⟩
      · have hcon : w.construct cap =
            (⟨put w.block w.next (some (List.replicate cap none)), w.next + 1, w.arr, w.log, w.made⟩,
              ⟨0, cap, some w.next⟩) := by unfold World.construct; rw [if_pos hc]
        rw [hcon]
        refine ⟨?_, hlog, hmade⟩
        refine P_store hP i none (.inl ⟨hi, rfl⟩) _ _ (fun q _ e => put_ne _ _ (fun h => e (by rw [h]))) (.inr ?_)
          (fun _ q e => by simp at e) ?_ ⟨rfl, rfl, by simp, .inr ⟨hc, w.next, rfl, ?_⟩⟩
        · intro q e
          rw [Option.some.injEq] at e; omega
        · intro p hp
          have hp : w.next + 1 ≤ p := hp
          show put w.block w.next _ p = none
          rw [put_ne _ _ (by omega)]; exact hP.fresh p (by omega)
        · exact (put_same _ _ _).trans (by simp)
  | move i j =>
    simp only [Op.apply] at h
    split at h
    · rename_i y h0 hj
      obtain rfl := Option.some.inj h
      have hi := (hP.dom i).mpr h0
      obtain ⟨b, hb⟩ := hsome hj
      have hij : i ≠ j := by rintro rfl; rw [hi] at hb; simp at hb
      exact ⟨⟨w.block, w.next, put (put w.arr i (some ⟨b.count, b.capacity, b.storage⟩)) j (some ⟨0, 0, none⟩), w.log, w.made⟩,
        by simp only [World.step, hi, hb], P_move hP hij hi hb hj, hlog, hmade⟩
    · simp at h
  | moveAssign i j =>
    simp only [Op.apply] at h
    split at h
    · rename_i x y h0 hj
      obtain rfl := Option.some.inj h
      obtain ⟨a, ha⟩ := hsome h0
      obtain ⟨b, hb⟩ := hsome hj
      obtain ⟨m, a', g1, g2, g3, g4, g5⟩ := release_spec w a x (hP.own i a x ha h0)
      have hdrop := P_drop hP i a ha g4 g5
      by_cases hij : i = j
      · subst hij
        refine ⟨⟨m, w.next,
          put (put (put w.arr i (some a')) i (some ⟨a'.count, a'.capacity, a'.storage⟩)) i (some ⟨0, 0, none⟩),
          w.log ++ destroyed x.elems, w.made⟩, ?_, ?_⟩
        · simp only [World.step, ha, g1, put_same]
        · refine ⟨?_, by simp only [hlog], hmade⟩
          have := P_store hdrop i none (.inl ⟨put_same _ _ _, rfl⟩) ⟨0, 0, none⟩ ⟨[], 0⟩ (fun _ _ _ => rfl) (.inl rfl)
            (fun e => absurd rfl e) hdrop.fresh ⟨rfl, rfl, Nat.le_refl _, .inl ⟨rfl, rfl⟩⟩
          simp only [put_put] at this ⊢
          exact this
      · have hji : j ≠ i := fun e => hij e.symm
        refine ⟨⟨m, w.next,
          put (put (put w.arr i (some a')) i (some ⟨b.count, b.capacity, b.storage⟩)) j (some ⟨0, 0, none⟩),
          w.log ++ destroyed x.elems, w.made⟩, ?_, ?_⟩
        · simp only [World.step, ha, hb, g1, put_ne _ _ hji]
        · refine ⟨?_, by simp only [hlog], hmade⟩
          have := P_move (i := i) (j := j) (b := b) (y := y) hdrop hij (put_same _ _ _) (by rw [put_ne _ _ hji]; exact hb)
            (by rw [put_ne _ _ hji]; exact hj)
          simp only [put_put, if_neg hij] at this ⊢
          exact this
    · simp at h
  | destroy i =>
    simp only [Op.apply] at h
    split at h
    · simp at h
    · rename_i x h0
      obtain rfl := Option.some.inj h
      obtain ⟨a, ha⟩ := hsome h0
      obtain ⟨m, a', g1, g2, g3, g4, g5⟩ := release_spec w a x (hP.own i a x ha h0)
      exact ⟨⟨m, w.next, put w.arr i none, w.log ++ destroyed x.elems, w.made⟩, by simp only [World.step, ha, g1], P_drop hP i a ha g4 g5, by simp only [hlog], hmade⟩
  | emplace i throws =>
    simp only [Op.apply] at h
    split at h
    · simp at h
    · rename_i x h0
      obtain ⟨a, ha⟩ := hsome h0
      obtain ⟨o1, o2, o3, o4⟩ := hP.own i a x ha h0
      split at h
      · rename_i hlt
        rcases o4 with o4 | ⟨o4, p, o5, o6⟩
        · omega
        · have hget : (x.elems.map some ++ List.replicate (x.cap - x.elems.length) (none : Option Nat))[a.count]? = some none := by
            rw [List.getElem?_append_right (by simp; omega), List.getElem?_replicate, if_pos (by simp; omega)]
          have hset : (x.elems.map some ++ List.replicate (x.cap - x.elems.length) (none : Option Nat)).set a.count (some w.made) =
              (x.elems ++ [w.made]).map some ++ List.replicate (x.cap - (x.elems ++ [w.made]).length) none := by
            rw [List.set_append_right _ _ (by simp; omega)]
            have e : x.cap - x.elems.length = (x.cap - (x.elems ++ [w.made]).length) + 1 := by simp; omega
            rw [e, List.replicate_succ]
            simp [o1]
          have hcc : a.count < a.capacity := by omega
          by_cases ht : throws = true
          · rw [if_pos ht] at h
            obtain rfl := Option.some.inj h
            refine ⟨{ w with arr := put w.arr i (some a) }, ?_, ?_⟩
            · simp only [World.step, ha, World.emplace, if_pos hcc, o5, o6, hget, if_pos ht]
            · have : put w.arr i (some a) = w.arr := by
                funext k; simp only [put]; split
                · rename_i e; subst e; exact ha.symm
                · rfl
              rw [this]; exact ⟨hP, hlog, hmade⟩
          · rw [if_neg ht] at h
            obtain rfl := Option.some.inj h
            refine ⟨⟨put w.block p (some ((x.elems.map some ++ List.replicate (x.cap - x.elems.length) none).set a.count (some w.made))),
              w.next, put w.arr i (some ⟨a.count + 1, a.capacity, some p⟩), w.log ++ [.made w.made], w.made + 1⟩,
              by simp only [World.step, ha, World.emplace, if_pos hcc, o5, o6, hget, if_neg ht], ?_⟩
            refine ⟨?_, by simp only [hlog, hmade], by simp only [hmade]⟩
            rw [hset, ← hmade]
            refine P_store hP i (some p) (.inr ⟨a, ha, o5⟩) _ _ (fun q e _ => put_ne _ _ (fun h => e (by rw [h])))
              (.inl rfl) (fun e => absurd rfl e) ?_ ⟨by simp [o1], o2, by simp; omega, .inr ⟨o4, p, rfl, put_same _ _ _⟩⟩
            intro q hq
            have hpl := own_lt hP.fresh (hP.own i a x ha h0) o5
            have hq : w.next ≤ q := hq
            show put w.block p _ q = none
            rw [put_ne _ _ (by omega)]; exact hP.fresh q hq
      · simp at h
  | clear i =>
    simp only [Op.apply] at h
    split at h
    · simp at h
    · rename_i x h0
      obtain rfl := Option.some.inj h
      obtain ⟨a, ha⟩ := hsome h0
      have hown := hP.own i a x ha h0
      obtain ⟨m, g1, g2, g3⟩ := destroyAll_spec w a x hown
      refine ⟨⟨m, w.next, put w.arr i (some ⟨0, a.capacity, a.storage⟩), w.log ++ destroyed x.elems, w.made⟩,
        by simp only [World.step, ha, g1], ?_, by simp only [hlog], hmade⟩
      refine P_store hP i a.storage (.inr ⟨a, ha, rfl⟩) _ _ (fun q e _ => g3 q e) (.inl rfl) (fun e => absurd rfl e) ?_ g2
      intro q hq
      have : a.storage ≠ some q := fun e => by
        have := own_lt hP.fresh hown e
        have hq : w.next ≤ q := hq
        omega
      show m q = none
      rw [g3 q this]; exact hP.fresh q hq

theorem run_spec {w : World} {s s' : State} (hR : R w s) (l : List Op) (h : run s l = some s') :
    ∃ w', w.run l = some w' ∧ R w' s' := by
  induction l generalizing w s with
  | nil => simp only [run, Option.some.injEq] at h; subst h; exact ⟨w, rfl, hR⟩
  | cons o l ih =>
    simp only [run] at h
    split at h
    · simp at h
    · rename_i u hu
      obtain ⟨w1, h1, h2⟩ := step_spec hR o hu
      obtain ⟨w', h3, h4⟩ := ih h2 h
      exact ⟨w', by simp only [World.run, h1]; exact h3, h4⟩

theorem R_init : R World.init State.init :=
  ⟨⟨fun _ => by simp [World.init, State.init], fun _ _ _ h => by simp [World.init] at h,
    fun _ _ _ _ _ h => by simp [World.init] at h, fun _ h => by simp [World.init] at h, fun _ _ => rfl⟩, rfl, rfl⟩

/-! ## Elements are made once and destroyed once -/

theorem snoc_eq {α : Type} {l a b : List α} {x y : α} (h : l ++ [y] = a ++ x :: b) :
    (b = [] ∧ a = l ∧ x = y) ∨ ∃ b', b = b' ++ [y] ∧ l = a ++ x :: b' := by
  rcases List.eq_nil_or_concat b with rfl | ⟨b', z, rfl⟩
  · have := List.append_inj' h rfl
    exact .inl ⟨rfl, this.1.symm, by simpa using this.2.symm⟩
  · have h' : l ++ [y] = (a ++ x :: b') ++ [z] := by rw [h]; simp
    have := List.append_inj' h' rfl
    have e : y = z := by simpa using this.2
    exact .inr ⟨b', by rw [e]; simp, this.1⟩

theorem proper_gone {log : List Event} (h : Proper log) {e : Nat} (h1 : .made e ∈ log) (h2 : .gone e ∉ log) :
    Proper (log ++ [.gone e]) := by
  refine ⟨fun a b f hf => ?_, fun a b f hf => ?_⟩
  · rcases snoc_eq hf with ⟨_, _, h3⟩ | ⟨b', _, h3⟩
    · simp at h3
    · exact h.1 a b' f h3
  · rcases snoc_eq hf with ⟨_, rfl, h3⟩ | ⟨b', _, h3⟩
    · obtain rfl := Event.gone.inj h3
      exact ⟨h1, h2⟩
    · exact h.2 a b' f h3

theorem proper_made {log : List Event} (h : Proper log) {e : Nat} (h1 : .made e ∉ log) : Proper (log ++ [.made e]) := by
  refine ⟨fun a b f hf => ?_, fun a b f hf => ?_⟩
  · rcases snoc_eq hf with ⟨_, rfl, h3⟩ | ⟨b', _, h3⟩
    · obtain rfl := Event.made.inj h3
      exact h1
    · exact h.1 a b' f h3
  · rcases snoc_eq hf with ⟨_, _, h3⟩ | ⟨b', _, h3⟩
    · simp at h3
    · exact h.2 a b' f h3

theorem proper_list {log : List Event} (h : Proper log) (l : List Nat) (hn : l.Nodup)
    (h1 : ∀ e ∈ l, .made e ∈ log) (h2 : ∀ e ∈ l, .gone e ∉ log) : Proper (log ++ l.map .gone) := by
  induction l generalizing log with
  | nil => simpa using h
  | cons e l ih =>
    have hn' := List.nodup_cons.mp hn
    have := ih (proper_gone h (h1 e (by simp)) (h2 e (by simp))) hn'.2
      (fun f hf => by simp; exact h1 f (by simp [hf]))
      (fun f hf => by
        simp only [List.mem_append, List.mem_singleton, Event.gone.injEq, not_or]
        exact ⟨h2 f (by simp [hf]), fun e' => hn'.1 (e' ▸ hf)⟩)
    simpa using this

theorem mem_destroyed_gone (l : List Nat) (e : Nat) : Event.gone e ∈ destroyed l ↔ e ∈ l := by simp [destroyed]
theorem mem_destroyed_made (l : List Nat) (e : Nat) : Event.made e ∉ destroyed l := by simp [destroyed]

/-- the element is in some array -/
def Alive (arr : Nat → Option Arr) (e : Nat) : Prop := ∃ i x, arr i = some x ∧ e ∈ x.elems

structure Inv (s : State) : Prop where
  proper : Proper s.log
  made : ∀ e, .made e ∈ s.log ↔ e < s.count
  gone : ∀ e, .gone e ∈ s.log ↔ e < s.count ∧ ¬ Alive s.arr e
  lt : ∀ e, Alive s.arr e → e < s.count
  nodup : ∀ i x, s.arr i = some x → x.elems.Nodup
  disj : ∀ i j x y e, s.arr i = some x → s.arr j = some y → e ∈ x.elems → e ∈ y.elems → i = j

/-- destroying the elements `l` of variable `i`, when afterwards exactly the other elements are in arrays -/
theorem inv_destroy {s : State} (h : Inv s) (i : Nat) (x : Arr) (hx : s.arr i = some x) (arr' : Nat → Option Arr)
    (halive : ∀ e, Alive arr' e ↔ Alive s.arr e ∧ e ∉ x.elems)
    (hnodup : ∀ i x, arr' i = some x → x.elems.Nodup)
    (hdisj : ∀ i j x y e, arr' i = some x → arr' j = some y → e ∈ x.elems → e ∈ y.elems → i = j) :
    Inv ⟨arr', s.log ++ destroyed x.elems, s.count⟩ := by
  have hal : ∀ e ∈ x.elems, Alive s.arr e := fun e he => ⟨i, x, hx, he⟩
  refine ⟨?_, ?_, ?_, ?_, hnodup, hdisj⟩
  · refine proper_list h.proper x.elems.reverse (List.pairwise_reverse.mpr ((h.nodup i x hx).imp Ne.symm)) (fun e he => ?_) (fun e he => ?_)
    · exact (h.made e).mpr (h.lt e (hal e (by simpa using he)))
    · exact fun hg => ((h.gone e).mp hg).2 (hal e (by simpa using he))
  · intro e
    simp only [List.mem_append, mem_destroyed_made, or_false]
    exact h.made e
  · intro e
    simp only [List.mem_append, mem_destroyed_gone, h.gone e, halive]
    constructor
    · rintro (⟨h1, h2⟩ | h1)
      · exact ⟨h1, fun h3 => h2 h3.1⟩
      · exact ⟨h.lt e (hal e h1), fun h3 => h3.2 h1⟩
    · rintro ⟨h1, h2⟩
      by_cases he : e ∈ x.elems
      · exact .inr he
      · exact .inl ⟨h1, fun h3 => h2 ⟨h3, he⟩⟩
  · intro e he
    exact h.lt e ((halive e).mp he).1

/-- nothing is made or destroyed -/
theorem inv_move {s : State} (h : Inv s) (arr' : Nat → Option Arr) (halive : ∀ e, Alive arr' e ↔ Alive s.arr e)
    (hnodup : ∀ i x, arr' i = some x → x.elems.Nodup)
    (hdisj : ∀ i j x y e, arr' i = some x → arr' j = some y → e ∈ x.elems → e ∈ y.elems → i = j) :
    Inv ⟨arr', s.log, s.count⟩ :=
  ⟨h.proper, h.made, fun e => by rw [h.gone e, halive], fun e he => h.lt e ((halive e).mp he), hnodup, hdisj⟩

/-- moving from `j` to `i` (whose old elements are forgotten) -/
theorem move_arr {arr : Nat → Option Arr} {i j : Nat} (hij : i ≠ j) {y : Arr} (hj : arr j = some y)
    (hnodup : ∀ i x, arr i = some x → x.elems.Nodup)
    (hdisj : ∀ i j x y e, arr i = some x → arr j = some y → e ∈ x.elems → e ∈ y.elems → i = j) (xs : List Nat)
    (hi : ∀ e, (∃ x, arr i = some x ∧ e ∈ x.elems) ↔ e ∈ xs) :
    (∀ e, Alive (put (put arr i (some y)) j (some ⟨[], 0⟩)) e ↔ Alive arr e ∧ e ∉ xs) ∧
    (∀ k x, put (put arr i (some y)) j (some ⟨[], 0⟩) k = some x → x.elems.Nodup) ∧
    (∀ k l x z e, put (put arr i (some y)) j (some ⟨[], 0⟩) k = some x → put (put arr i (some y)) j (some ⟨[], 0⟩) l = some z →
      e ∈ x.elems → e ∈ z.elems → k = l) := by
  -- where an element is now, and where it was
  have key : ∀ k x, put (put arr i (some y)) j (some ⟨[], 0⟩) k = some x →
      x.elems = [] ∨ (k = i ∧ x = y) ∨ (k ≠ i ∧ k ≠ j ∧ arr k = some x) := by
    intro k x hk
    by_cases e1 : k = j
    · subst e1; rw [put_same] at hk; obtain rfl := Option.some.inj hk; exact .inl rfl
    · rw [put_ne _ _ e1] at hk
      by_cases e2 : k = i
      · subst e2; rw [put_same] at hk; exact .inr (.inl ⟨rfl, (Option.some.inj hk).symm⟩)
      · rw [put_ne _ _ e2] at hk; exact .inr (.inr ⟨e2, e1, hk⟩)
  refine ⟨?_, ?_, ?_⟩
  · intro e
    constructor
    · rintro ⟨k, x, hk, he⟩
      rcases key k x hk with h | ⟨rfl, rfl⟩ | ⟨h1, h2, h3⟩
      · rw [h] at he; simp at he
      · refine ⟨⟨j, x, hj, he⟩, fun h => ?_⟩
        obtain ⟨z, hz, hez⟩ := (hi e).mpr h
        exact hij (hdisj k j z x e hz hj hez he)
      · refine ⟨⟨k, x, h3, he⟩, fun h => ?_⟩
        obtain ⟨z, hz, hez⟩ := (hi e).mpr h
        exact h1 (hdisj k i x z e h3 hz he hez)
    · rintro ⟨⟨k, x, hk, he⟩, hn⟩
      by_cases e1 : k = j
      · subst e1
        rw [hj] at hk; obtain rfl := Option.some.inj hk
        exact ⟨i, y, by rw [put_ne _ _ hij, put_same], he⟩
      · have e2 : k ≠ i := by rintro rfl; exact hn ((hi e).mp ⟨x, hk, he⟩)
        exact ⟨k, x, by rw [put_ne _ _ e1, put_ne _ _ e2]; exact hk, he⟩
  · intro k x hk
    rcases key k x hk with h | ⟨rfl, rfl⟩ | ⟨h1, h2, h3⟩
    · rw [h]; exact List.nodup_nil
    · exact hnodup j x hj
    · exact hnodup k x h3
  · intro k l x z e hk hl hx hz
    rcases key k x hk with h | ⟨h1, h2⟩ | ⟨h1, h2, h3⟩
    · rw [h] at hx; simp at hx
    · rcases key l z hl with g | ⟨g1, g2⟩ | ⟨g1, g2, g3⟩
      · rw [g] at hz; simp at hz
      · rw [h1, g1]
      · subst h2
        exact absurd (hdisj l j z x e g3 hj hz hx) g2
    · rcases key l z hl with g | ⟨g1, g2⟩ | ⟨g1, g2, g3⟩
      · rw [g] at hz; simp at hz
      · subst g2
        exact absurd (hdisj k j x z e h3 hj hx hz) h2
      · exact hdisj k l x z e h3 g3 hx hz

/-- storing an array with no elements (or none) in `i` -/
theorem drop_arr {arr : Nat → Option Arr} {i : Nat} (o : Option Arr) (ho : ∀ x, o = some x → x.elems = [])
    (hnodup : ∀ i x, arr i = some x → x.elems.Nodup)
    (hdisj : ∀ i j x y e, arr i = some x → arr j = some y → e ∈ x.elems → e ∈ y.elems → i = j) (xs : List Nat)
    (hi : ∀ e, (∃ x, arr i = some x ∧ e ∈ x.elems) ↔ e ∈ xs) :
    (∀ e, Alive (put arr i o) e ↔ Alive arr e ∧ e ∉ xs) ∧
    (∀ k x, put arr i o k = some x → x.elems.Nodup) ∧
    (∀ k l x z e, put arr i o k = some x → put arr i o l = some z → e ∈ x.elems → e ∈ z.elems → k = l) := by
  have key : ∀ k x, put arr i o k = some x → x.elems = [] ∨ (k ≠ i ∧ arr k = some x) := by
    intro k x hk
    by_cases e1 : k = i
    · subst e1; rw [put_same] at hk; exact .inl (ho x hk)
    · rw [put_ne _ _ e1] at hk; exact .inr ⟨e1, hk⟩
  refine ⟨?_, ?_, ?_⟩
  · intro e
    constructor
    · rintro ⟨k, x, hk, he⟩
      rcases key k x hk with h | ⟨h1, h3⟩
      · rw [h] at he; simp at he
      · refine ⟨⟨k, x, h3, he⟩, fun h => ?_⟩
        obtain ⟨z, hz, hez⟩ := (hi e).mpr h
        exact h1 (hdisj k i x z e h3 hz he hez)
    · rintro ⟨⟨k, x, hk, he⟩, hn⟩
      have e2 : k ≠ i := by rintro rfl; exact hn ((hi e).mp ⟨x, hk, he⟩)
      exact ⟨k, x, by rw [put_ne _ _ e2]; exact hk, he⟩
  · intro k x hk
    rcases key k x hk with h | ⟨h1, h3⟩
    · rw [h]; exact List.nodup_nil
    · exact hnodup k x h3
  · intro k l x z e hk hl hx hz
    rcases key k x hk with h | ⟨h1, h3⟩
    · rw [h] at hx; simp at hx
    · rcases key l z hl with g | ⟨g1, g3⟩
      · rw [g] at hz; simp at hz
      · exact hdisj k l x z e h3 g3 hx hz

theorem inv_step {s s' : State} (h : Inv s) (o : Op) (ha : o.apply s = some s') : Inv s' := by
  have helems : ∀ {i x}, s.arr i = some x → ∀ e, (∃ z, s.arr i = some z ∧ e ∈ z.elems) ↔ e ∈ x.elems := by
    intro i x hx e
    constructor
    · rintro ⟨z, hz, he⟩; rw [hx] at hz; obtain rfl := Option.some.inj hz; exact he
    · intro he; exact ⟨x, hx, he⟩
  have hnone : ∀ {i}, s.arr i = none → ∀ e, (∃ z, s.arr i = some z ∧ e ∈ z.elems) ↔ e ∈ ([] : List Nat) := by
    intro i hx e
    simp [hx]
  cases o with
  | construct i cap =>
    simp only [Op.apply] at ha
    split at ha
    · simp at ha
    · rename_i h0
      obtain rfl := Option.some.inj ha
      obtain ⟨h1, h2, h3⟩ := drop_arr (some ⟨[], cap⟩) (by intro x hx; obtain rfl := Option.some.inj hx; rfl) h.nodup h.disj [] (hnone h0)
      exact inv_move h _ (by simpa using h1) h2 h3
  | move i j =>
    simp only [Op.apply] at ha
    split at ha
    · rename_i y h0 hj
      obtain rfl := Option.some.inj ha
      have hij : i ≠ j := by rintro rfl; rw [h0] at hj; simp at hj
      obtain ⟨h1, h2, h3⟩ := move_arr hij hj h.nodup h.disj [] (hnone h0)
      exact inv_move h _ (by simpa using h1) h2 h3
    · simp at ha
  | moveAssign i j =>
    simp only [Op.apply] at ha
    split at ha
    · rename_i x y h0 hj
      obtain rfl := Option.some.inj ha
      by_cases hij : i = j
      · subst hij
        rw [put_put]
        obtain ⟨h1, h2, h3⟩ := drop_arr (some ⟨[], 0⟩) (by intro x hx; obtain rfl := Option.some.inj hx; rfl) h.nodup h.disj x.elems (helems h0)
        exact inv_destroy h i x h0 _ h1 h2 h3
      · rw [if_neg hij]
        obtain ⟨h1, h2, h3⟩ := move_arr hij hj h.nodup h.disj x.elems (helems h0)
        exact inv_destroy h i x h0 _ h1 h2 h3
    · simp at ha
  | destroy i =>
    simp only [Op.apply] at ha
    split at ha
    · simp at ha
    · rename_i x h0
      obtain rfl := Option.some.inj ha
      obtain ⟨h1, h2, h3⟩ := drop_arr none (by simp) h.nodup h.disj x.elems (helems h0)
      exact inv_destroy h i x h0 _ h1 h2 h3
  | clear i =>
    simp only [Op.apply] at ha
    split at ha
    · simp at ha
    · rename_i x h0
      obtain rfl := Option.some.inj ha
      obtain ⟨h1, h2, h3⟩ := drop_arr (some ⟨[], x.cap⟩) (by intro x hx; obtain rfl := Option.some.inj hx; rfl) h.nodup h.disj x.elems (helems h0)
      exact inv_destroy h i x h0 _ h1 h2 h3
  | emplace i throws =>
    simp only [Op.apply] at ha
    split at ha
    · simp at ha
    · rename_i x h0
      split at ha
      · split at ha
        · obtain rfl := Option.some.inj ha; exact h
        · obtain rfl := Option.some.inj ha
          have hnew : ∀ j y, s.arr j = some y → s.count ∉ y.elems := fun j y hy he => by
            have := h.lt _ ⟨j, y, hy, he⟩; omega
          have hal : ∀ e, Alive (put s.arr i (some ⟨x.elems ++ [s.count], x.cap⟩)) e ↔ Alive s.arr e ∨ e = s.count := by
            intro e
            constructor
            · rintro ⟨k, z, hk, he⟩
              by_cases e1 : k = i
              · subst e1; rw [put_same] at hk; obtain rfl := Option.some.inj hk
                rcases List.mem_append.mp he with he | he
                · exact .inl ⟨k, x, h0, he⟩
                · exact .inr (by simpa using he)
              · rw [put_ne _ _ e1] at hk; exact .inl ⟨k, z, hk, he⟩
            · rintro (⟨k, z, hk, he⟩ | rfl)
              · by_cases e1 : k = i
                · subst e1; rw [h0] at hk; obtain rfl := Option.some.inj hk
                  exact ⟨k, _, put_same _ _ _, List.mem_append_left _ he⟩
                · exact ⟨k, z, by rw [put_ne _ _ e1]; exact hk, he⟩
              · exact ⟨i, _, put_same _ _ _, by simp⟩
          refine ⟨proper_made h.proper (fun hm => by have := (h.made _).mp hm; omega), ?_, ?_, ?_, ?_, ?_⟩
          · intro e
            simp only [List.mem_append, List.mem_singleton, Event.made.injEq, h.made e]
            omega
          · intro e
            simp only [List.mem_append, List.mem_singleton, reduceCtorEq, or_false, h.gone e, hal]
            constructor
            · rintro ⟨h1, h2⟩
              exact ⟨by omega, by rintro (h3 | h3); exact h2 h3; omega⟩
            · rintro ⟨h1, h2⟩
              exact ⟨by have : e ≠ s.count := fun h3 => h2 (.inr h3)
                        omega, fun h3 => h2 (.inl h3)⟩
          · intro e he
            show e < s.count + 1
            rcases (hal e).mp he with h1 | h1
            · have := h.lt e h1; omega
            · omega
          · intro k z hk
            by_cases e1 : k = i
            · subst e1; simp only [put_same] at hk; obtain rfl := Option.some.inj hk
              refine List.nodup_append.mpr ⟨h.nodup k x h0, by simp, ?_⟩
              intro a ha b hb
              simp only [List.mem_singleton] at hb
              rintro rfl
              exact hnew k x h0 (hb ▸ ha)
            · simp only [put_ne _ _ e1] at hk; exact h.nodup k z hk
          · intro k l z u e hk hl hz hu
            by_cases e1 : k = i <;> by_cases e2 : l = i
            · rw [e1, e2]
            · subst e1; simp only [put_same] at hk; obtain rfl := Option.some.inj hk
              simp only [put_ne _ _ e2] at hl
              rcases List.mem_append.mp hz with hz | hz
              · exact h.disj k l x u e h0 hl hz hu
              · simp only [List.mem_singleton] at hz; subst hz; exact absurd hu (hnew l u hl)
            · subst e2; simp only [put_same] at hl; obtain rfl := Option.some.inj hl
              simp only [put_ne _ _ e1] at hk
              rcases List.mem_append.mp hu with hu | hu
              · exact h.disj k l z x e hk h0 hz hu
              · simp only [List.mem_singleton] at hu; subst hu; exact absurd hz (hnew k z hk)
            · simp only [put_ne _ _ e1] at hk
              simp only [put_ne _ _ e2] at hl
              exact h.disj k l z u e hk hl hz hu
      · simp at ha

theorem inv_run {s s' : State} (h : Inv s) (l : List Op) (ha : run s l = some s') : Inv s' := by
  induction l generalizing s with
  | nil => simp only [run, Option.some.injEq] at ha; subst ha; exact h
  | cons o l ih =>
    simp only [run] at ha
    split at ha
    · simp at ha
    · rename_i u hu
      exact ih (inv_step h o hu) ha

theorem inv_init : Inv State.init := by
  refine ⟨⟨fun a b e h => ?_, fun a b e h => ?_⟩, fun e => by simp [State.init], fun e => by simp [State.init], ?_, ?_, ?_⟩
  · simp [State.init] at h
  · simp [State.init] at h
  · rintro e ⟨i, x, h, _⟩; simp [State.init] at h
  · intro i x h; simp [State.init] at h
  · intro i j x y e h; simp [State.init] at h

end Verif.Proofs.Emplace
