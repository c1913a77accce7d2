import Verif.Props.Emplace
import Verif.Proofs.EmplaceFail
/-! C180 (emplacement arrays when the allocator fails). -/
namespace Verif.Props.EmplaceFail
open Verif.Spec.Emplace Verif.Spec.EmplaceFail Verif.Proofs.EmplaceFail
open Verif.Model.Emplace (World)
open Verif.Model.EmplaceFail (step)

/-- every construction which finds memory asks for a number of bytes in the range of sizes -/
def AllFit (size align : Nat) (l : List (Op × Bool)) : Prop := ∀ i cap ok, (Op.construct i cap, ok) ∈ l → Fits size align cap

theorem step_sim {size align : BitVec 64} {w g : World} {o : Op × Bool} (hs : size.toNat ≠ 0) (ha : Spec.IsPow2 align.toNat)
    (hf : ∀ i cap ok, o = (.construct i cap, ok) → Fits size.toNat align.toNat cap) {c : Nat → Option Nat}
    (hcl : ∀ i, (w.arr i).map (·.capacity) = c i) (h : (ghost w).step (seen o) = some g) :
    ∃ w', step size align w o = some w' ∧ ghost w' = g ∧ ∀ i, (w'.arr i).map (·.capacity) = claim c o.1 i := by
  obtain ⟨o, ok⟩ := o
  cases o with
  | construct i cap =>
    have hfit := hf i cap ok rfl
    have hgen : ∀ k, (ghost w).step (.construct i k) = some g → w.arr i = none ∧
        g = { (ghost w).construct k |>.1 with arr := put (ghost w).arr i (some ((ghost w).construct k).2) } := by
      intro k hk
      simp only [World.step] at hk
      cases hi : w.arr i with
      | some a => simp [ghost, hi] at hk
      | none =>
        have gi : (ghost w).arr i = none := by simp [ghost, hi]
        rw [gi] at hk
        exact ⟨rfl, (Option.some.inj hk).symm⟩
    have hcap : ∀ (a : Verif.Model.Emplace.Array), a.capacity = cap →
        ∀ k, ((put w.arr i (some a)) k).map (·.capacity) = put c i (some cap) k := by
      intro a hacap k
      by_cases hk : k = i
      · subst hk; simp [put, hacap]
      · simp only [put, hk, if_false]; exact hcl k
    cases ok with
    | true =>
      obtain ⟨hi, rfl⟩ := hgen cap h
      refine ⟨{ (w.construct cap).1 with arr := put w.arr i (some (w.construct cap).2) }, ?_, ?_, ?_⟩
      · unfold step
        simp only [hi]
        rw [show Verif.Model.EmplaceFail.construct size align w true cap = some (w.construct cap) from
          construct_fits w hs ha hfit]
      · unfold World.construct
        by_cases hc : cap = 0
        · simp only [hc, ne_eq, not_true, if_false, ghost, map_put]; rfl
        · rw [if_pos hc, if_pos hc]
          simp only [ghost, map_put]; rfl
      · apply hcap
        unfold World.construct
        split <;> rfl
    | false =>
      obtain ⟨hi, rfl⟩ := hgen 0 h
      have hd : ∃ r, Verif.Model.EmplaceFail.construct size align w false cap = some r := by
        have h1 : Verif.Model.EmplaceFail.construct size align w true cap = some (w.construct cap) :=
          construct_fits w hs ha hfit
        unfold Verif.Model.EmplaceFail.construct at h1 ⊢
        split
        · rename_i hc
          rw [if_pos hc] at h1
          split
          · rename_i he; rw [he] at h1; simp at h1
          · exact ⟨_, rfl⟩
        · exact ⟨_, rfl⟩
      obtain ⟨r, hr⟩ := hd
      obtain rfl := construct_fails w hr
      refine ⟨{ w with arr := put w.arr i (some ⟨0, cap, none⟩) }, ?_, ?_, hcap _ rfl⟩
      · unfold step
        simp only [hi]
        rw [hr]
      · simp only [World.construct, ne_eq, not_true, if_false, ghost, map_put]; rfl
  | move i j =>
    obtain ⟨w', h1, h2⟩ := step_ghost (.move i j) (by simp) h
    refine ⟨w', h1, h2, ?_⟩
    simp only [World.step] at h1
    cases hi : w.arr i with
    | some a => rw [hi] at h1; simp at h1
    | none =>
      cases hj : w.arr j with
      | none => rw [hi, hj] at h1; simp at h1
      | some b =>
        rw [hi, hj] at h1
        obtain rfl := Option.some.inj h1
        intro k
        simp only [claim, put]
        by_cases hkj : k = j
        · simp [hkj]
        · by_cases hki : k = i
          · simp only [if_neg hkj, if_pos hki, ← hcl j, hj, Option.map_some]
          · simp only [if_neg hkj, if_neg hki]; exact hcl k
  | moveAssign i j =>
    obtain ⟨w', h1, h2⟩ := step_ghost (.moveAssign i j) (by simp) h
    refine ⟨w', h1, h2, ?_⟩
    simp only [World.step] at h1
    cases hi : w.arr i with
    | none => rw [hi] at h1; simp at h1
    | some a =>
      cases hj : w.arr j with
      | none => rw [hi, hj] at h1; simp at h1
      | some b =>
        rw [hi, hj] at h1
        simp only at h1
        cases hr : w.release a with
        | none => rw [hr] at h1; simp at h1
        | some r =>
          rw [hr] at h1
          simp only at h1
          have hk := release_keeps hr
          split at h1
          · simp at h1
          · rename_i rhs hrhs
            obtain rfl := Option.some.inj h1
            intro k
            simp only [claim]
            by_cases hkj : k = j
            · simp [put, hkj]
            · simp only [put, if_neg hkj]
              by_cases hki : k = i
              · simp only [if_pos hki]
                have hji : j ≠ i := fun e => hkj (by rw [hki, e])
                rw [Verif.Proofs.Emplace.put_ne _ _ hji, hk, hj] at hrhs
                obtain rfl := Option.some.inj hrhs
                rw [← hcl j, hj, Option.map_some]
              · simp only [if_neg hki, hk]; exact hcl k
  | destroy i =>
    obtain ⟨w', h1, h2⟩ := step_ghost (.destroy i) (by simp) h
    refine ⟨w', h1, h2, ?_⟩
    simp only [World.step] at h1
    cases hi : w.arr i with
    | none => rw [hi] at h1; simp at h1
    | some a =>
      rw [hi] at h1
      simp only at h1
      cases hr : w.release a with
      | none => rw [hr] at h1; simp at h1
      | some r =>
        rw [hr] at h1
        have hk := release_keeps hr
        obtain rfl := Option.some.inj h1
        intro k
        simp only [claim, put, hk]
        by_cases hki : k = i
        · simp [hki]
        · simp only [if_neg hki]; exact hcl k
  | emplace i t =>
    obtain ⟨w', h1, h2⟩ := step_ghost (.emplace i t) (by simp) h
    refine ⟨w', h1, h2, ?_⟩
    simp only [World.step] at h1
    cases hi : w.arr i with
    | none => rw [hi] at h1; simp at h1
    | some a =>
      rw [hi] at h1
      simp only at h1
      cases hr : w.emplace a t with
      | none => rw [hr] at h1; simp at h1
      | some r =>
        rw [hr] at h1
        obtain rfl := Option.some.inj h1
        have hk : r.1.arr = w.arr ∧ r.2.capacity = a.capacity := by
          unfold World.emplace at hr
          split at hr
          · split at hr
            · simp at hr
            · split at hr
              · simp at hr
              · split at hr
                · split at hr <;> (obtain rfl := Option.some.inj hr; exact ⟨rfl, rfl⟩)
                · simp at hr
          · simp at hr
        intro k
        simp only [claim, put, hk.1]
        by_cases hki : k = i
        · subst hki
          rw [← hcl k, hi]
          simp [hk.2]
        · simp only [if_neg hki]; exact hcl k
  | clear i =>
    obtain ⟨w', h1, h2⟩ := step_ghost (.clear i) (by simp) h
    refine ⟨w', h1, h2, ?_⟩
    simp only [World.step] at h1
    cases hi : w.arr i with
    | none => rw [hi] at h1; simp at h1
    | some a =>
      rw [hi] at h1
      simp only at h1
      cases hr : w.destroyAll a with
      | none => rw [hr] at h1; simp at h1
      | some r =>
        rw [hr] at h1
        obtain rfl := Option.some.inj h1
        have hk : r.1.arr = w.arr ∧ r.2.capacity = a.capacity := by
          unfold World.destroyAll at hr
          split at hr
          · split at hr
            · obtain rfl := Option.some.inj hr; exact ⟨rfl, rfl⟩
            · simp at hr
          · split at hr
            · simp at hr
            · rename_i hd
              have := destroyLoop_keeps hd
              obtain rfl := Option.some.inj hr; exact ⟨this, rfl⟩
        intro k
        simp only [claim, put, hk.1]
        by_cases hki : k = i
        · subst hki
          rw [← hcl k, hi]
          simp [hk.2]
        · simp only [if_neg hki]; exact hcl k

theorem run_sim {size align : BitVec 64} (hs : size.toNat ≠ 0) (ha : Spec.IsPow2 align.toNat) (l : List (Op × Bool)) :
    ∀ (w g : World) (c : Nat → Option Nat), AllFit size.toNat align.toNat l → (∀ i, (w.arr i).map (·.capacity) = c i) →
    (ghost w).run (l.map seen) = some g → ∃ w', Verif.Model.EmplaceFail.run size align w l = some w' ∧ ghost w' = g ∧
      ∀ i, (w'.arr i).map (·.capacity) = l.foldl (fun c o => claim c o.1) c i := by
  induction l with
  | nil => intro w g c _ hc h; exact ⟨w, rfl, Option.some.inj h, hc⟩
  | cons o l ih =>
    intro w g c hf hc h
    simp only [List.map_cons, World.run] at h
    cases h1 : (ghost w).step (seen o) with
    | none => rw [h1] at h; simp at h
    | some g1 =>
      rw [h1] at h
      obtain ⟨w1, h2, rfl, h4⟩ := step_sim hs ha (fun i cap ok e => hf i cap ok (by rw [e]; simp)) hc h1
      obtain ⟨w', h5, h6, h7⟩ := ih w1 g _ (fun i cap ok hm => hf i cap ok (by simp [hm])) h4 h
      exact ⟨w', by simp only [Verif.Model.EmplaceFail.run, h2]; exact h5, h6, h7⟩

/-- **C180 (what holds)** In every history of operations on emplacement arrays in which any of the constructions may find
    no memory, and which adds elements only to arrays with room (an array which found no memory has none): nothing is
    undefined; the arrays have the expected elements; every element is made once, and destroyed at most once and only
    after it was made; elements not destroyed are exactly those in some array; memory not belonging to an array has been
    freed; and capacity() is what was asked for. The numbers of bytes asked for have to be in the range of sizes. -/
theorem C180_history_partial (size align : BitVec 64) (hs : size.toNat ≠ 0) (ha : Spec.IsPow2 align.toNat)
    (l : List (Op × Bool)) (hf : AllFit size.toNat align.toNat l) (s : State) (h : run State.init (l.map seen) = some s) :
    ∃ w, Verif.Model.EmplaceFail.run size align World.init l = some w ∧ w.log = s.log ∧
      (∀ i, (w.arr i).map (·.capacity) = claims l i) ∧
      (∀ i, w.arr i = none ↔ s.arr i = none) ∧
      (∀ i x, s.arr i = some x → ∃ a, w.arr i = some a ∧ a.count = x.elems.length ∧ x.elems.length ≤ a.capacity ∧
        (a.storage ≠ none → x.cap = a.capacity) ∧ (a.storage = none → x.cap = 0) ∧
        ∀ k (hk : k < x.elems.length), w.get i k = some x.elems[k]) ∧
      Proper w.log ∧
      (∀ e, .made e ∈ w.log ↔ e < w.made) ∧
      (∀ e, .gone e ∈ w.log ↔ .made e ∈ w.log ∧ ¬ ∃ i x, s.arr i = some x ∧ e ∈ x.elems) ∧
      (∀ p, w.block p ≠ none → ∃ i a, w.arr i = some a ∧ a.storage = some p) := by
  obtain ⟨g, h1, h2, h3, h4, h5, h6, h7, _, _, h10⟩ := C44_emplacement_array (l.map seen) s h
  obtain ⟨w, w1, rfl, w3⟩ := run_sim hs ha l World.init g (fun _ => none) hf (fun _ => rfl) h1
  refine ⟨w, w1, h2, w3, ?_, ?_, h5, h6, h7, ?_⟩
  · intro i
    rw [← h3 i]
    simp [ghost]
  · intro i x hx
    obtain ⟨a, a1, a2, a3, a4, a5⟩ := h4 i x hx
    cases hw : w.arr i with
    | none => simp [ghost, hw] at a1
    | some b =>
      have e : ga b = a := by simpa [ghost, hw] using a1
      subst e
      refine ⟨b, rfl, a2, ?_, ?_, ?_, ?_⟩
      · have : (ga b).capacity ≤ b.capacity := by
          unfold ga; simp only; split <;> omega
        omega
      · intro hst
        rw [← a3]; simp [ga, hst]
      · intro hst
        rw [← a3]; simp [ga, hst]
      · intro k hk
        rw [← a5 k hk]
        unfold World.get
        have e2 : (ghost w).arr i = some (ga b) := a1
        rw [e2, hw]
        rfl
  · intro p hp
    obtain ⟨i, a, hi, hst⟩ := h10 p hp
    cases hw : w.arr i with
    | none => simp [ghost, hw] at hi
    | some b =>
      have e : ga b = a := by simpa [ghost, hw] using hi
      subst e
      exact ⟨i, b, hw, hst⟩

/-- **C180 is violated (no memory)**: an array whose construction found no memory claims the capacity asked for, and the
    first element added to it is constructed at a null pointer. -/
theorem C180_no_memory_violated (size align : BitVec 64) (hs : size.toNat ≠ 0) (ha : Spec.IsPow2 align.toNat) (cap : Nat)
    (hc : cap ≠ 0) (hf : Fits size.toNat align.toNat cap) (throws ok : Bool) :
    ∃ w a, Verif.Model.EmplaceFail.run size align World.init [(.construct 0 cap, false)] = some w ∧ w.arr 0 = some a ∧
      a.count = 0 ∧ a.capacity = cap ∧ step size align w (.emplace 0 throws, ok) = none := by
  obtain ⟨w, h1, _, h3, h4, h5, _⟩ := C180_history_partial size align hs ha [(.construct 0 cap, false)]
    (fun i cap' ok hm => by simp at hm; obtain ⟨⟨_, rfl⟩, _⟩ := hm; exact hf) _ rfl
  obtain ⟨a, a1, a2, a3, a4, a5, _⟩ := h5 0 ⟨[], 0⟩ rfl
  have hcap : a.capacity = cap := by
    have := h3 0
    rw [a1] at this
    simpa [claims, claim, put] using this
  have hst : a.storage = none := by
    apply Classical.byContradiction
    intro hne
    have : 0 = a.capacity := a4 hne
    omega
  refine ⟨w, a, h1, a1, a2, hcap, ?_⟩
  simp only [step, World.step, a1, World.emplace, hst, ite_self]

/-- **C180 is violated (overflow)**: if the number of bytes for the capacity is not in the range of sizes, then an array is
    constructed (if at all) with memory for fewer elements than its capacity, and filling it up to its capacity writes
    beyond that memory, although the allocation succeeded. -/
theorem C180_overflow_violated (size align : BitVec 64) (hs : size.toNat ≠ 0) (cap : Nat) (hc : cap < 2 ^ 64)
    (hf : ¬ Fits size.toNat align.toNat cap) (hc0 : cap ≠ 0) :
    Verif.Model.EmplaceFail.run size align World.init
      ((.construct 0 cap, true) :: List.replicate cap (.emplace 0 false, true)) = none := by
  have e0 : World.init.arr 0 = none := rfl
  simp only [Verif.Model.EmplaceFail.run, step, e0, Verif.Model.EmplaceFail.construct]
  rw [if_pos hc0]
  cases h : Verif.Model.alignedAllocRequest (size * BitVec.ofNat 64 cap) align with
  | none => rfl
  | some r =>
    obtain ⟨a, bytes⟩ := r
    simp only [if_true]
    have hlt := construct_short hc hs hf h
    refine fill_short size align 0 World.init.next cap cap 0 _ (List.replicate (min cap (bytes.toNat / size.toNat)) none) (by omega)
      (by simp [put]) (by simp [put]) ?_ (by omega)
    rw [List.length_replicate]; omega

/-! Arrays of 24-byte elements: one finds no memory, is moved, replaced, and destroyed. -/

def sample : List (Op × Bool) :=
  [(.construct 0 3, false), (.construct 1 2, true), (.emplace 1 false, true), (.emplace 1 true, true), (.move 2 0, true),
    (.emplace 1 false, true), (.moveAssign 2 1, true), (.destroy 1, true), (.clear 2, true)]

example : ∃ s, run State.init (sample.map seen) = some s ∧ s.log = [.made 0, .made 1, .gone 1, .gone 0] ∧
    AllFit 24 8 sample ∧ (claims sample 0, claims sample 1, claims sample 2) = (some 0, none, some 2) := by
  refine ⟨_, rfl, by decide, ?_, by decide⟩
  intro i cap ok hm
  simp [sample] at hm
  rcases hm with ⟨⟨_, rfl⟩, _⟩ | ⟨⟨_, rfl⟩, _⟩ <;> (unfold Fits; decide)

example := C180_no_memory_violated 24#64 8#64 (by decide) ⟨3, rfl⟩ 3 (by decide) (by unfold Fits; decide) false true
example := C180_overflow_violated 24#64 8#64 (by decide) 0xAAAAAAAAAAAAAAB (by decide) (by unfold Fits; decide) (by decide)

end Verif.Props.EmplaceFail
