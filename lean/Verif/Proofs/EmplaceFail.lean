import Verif.Proofs.Emplace
import Verif.Props.Bits
import Verif.Model.EmplaceFail
/-! Lemmas about emplacement arrays when the allocator may fail: an array without memory behaves like one of no
    capacity. -/
namespace Verif.Proofs.EmplaceFail
open Verif.Spec.Emplace Verif.Model.Emplace Verif.Proofs.Emplace Verif.Spec.EmplaceFail

abbrev stepF := Verif.Model.EmplaceFail.step
abbrev runF := Verif.Model.EmplaceFail.run
abbrev constructF := Verif.Model.EmplaceFail.construct

def ga (a : Model.Emplace.Array) : Model.Emplace.Array := ⟨a.count, if a.storage = none then 0 else a.capacity, a.storage⟩

def ghost (w : World) : World := { w with arr := fun i => (w.arr i).map ga }

theorem map_put {α β : Type} (f : α → β) (v : Nat → Option α) (i : Nat) (x : Option α) :
    (fun k => (put v i x k).map f) = put (fun k => (v k).map f) i (x.map f) := by
  funext k; by_cases h : k = i <;> simp [put, h]

theorem destroyLoop_arr (w : World) (arr) (p n : Nat) :
    World.destroyLoop { w with arr := arr } p n = (w.destroyLoop p n).map fun w => { w with arr := arr } := by
  induction n generalizing w with
  | zero => rfl
  | succ n ih =>
    have h : World.destroyAt { w with arr := arr } p n = (w.destroyAt p n).map fun w => { w with arr := arr } := by
      unfold World.destroyAt
      cases w.block p with
      | none => rfl
      | some l =>
        simp only
        rcases l[n]? with _ | _ | e <;> rfl
    simp only [World.destroyLoop, h]
    cases w.destroyAt p n with
    | none => rfl
    | some w1 => exact ih w1

theorem destroyLoop_keeps {w w' : World} {p n : Nat} (h : w.destroyLoop p n = some w') : w'.arr = w.arr := by
  induction n generalizing w with
  | zero => simp only [World.destroyLoop] at h; exact congrArg World.arr (Option.some.inj h).symm
  | succ n ih =>
    simp only [World.destroyLoop] at h
    cases hd : w.destroyAt p n with
    | none => rw [hd] at h; simp at h
    | some w1 =>
      rw [hd] at h
      rw [ih h]
      unfold World.destroyAt at hd
      split at hd
      · simp at hd
      · split at hd
        · rw [← Option.some.inj hd]
        · simp at hd

theorem destroyAll_ghost (w : World) (a : Model.Emplace.Array) :
    (ghost w).destroyAll (ga a) = (w.destroyAll a).map fun r => (ghost r.1, ga r.2) := by
  unfold World.destroyAll
  cases hs : a.storage with
  | none =>
    simp only [ga, hs]
    by_cases h0 : a.count = 0 <;> simp [h0]
  | some p =>
    simp only [ga, hs]
    have : (ghost w).destroyLoop p a.count = (w.destroyLoop p a.count).map fun x => { x with arr := (ghost w).arr } :=
      destroyLoop_arr w _ p a.count
    rw [this]
    cases hd : w.destroyLoop p a.count with
    | none => rfl
    | some w1 =>
      simp only [Option.map_some]
      have e := destroyLoop_keeps hd
      simp only [ghost, e]

theorem release_ghost (w : World) (a : Model.Emplace.Array) :
    ((ghost w).release (ga a)).map (fun r => (r.1, ga r.2)) = (w.release a).map fun r => (ghost r.1, ga r.2) := by
  unfold World.release
  cases hs : a.storage with
  | none => simp [ga, hs]
  | some p =>
    have hg : (ga a).storage = some p := hs
    rw [hg]
    simp only [destroyAll_ghost]
    cases w.destroyAll a with
    | none => rfl
    | some r =>
      simp only [Option.map_some]
      have hb : (ghost r.1).block p = r.1.block p := rfl
      rw [hb]
      cases r.1.block p with
      | none => rfl
      | some l => simp [ghost, ga]

theorem release_keeps {w : World} {a : Model.Emplace.Array} {r} (h : w.release a = some r) : r.1.arr = w.arr := by
  unfold World.release at h
  split at h
  · exact congrArg (fun r => r.1.arr) (Option.some.inj h).symm
  · rename_i p hs
    unfold World.destroyAll at h
    rw [hs] at h
    simp only at h
    cases hd : w.destroyLoop p a.count with
    | none => rw [hd] at h; simp at h
    | some w1 =>
      rw [hd] at h
      simp only at h
      split at h
      · simp at h
      · rename_i hb
        have := (Option.some.inj h).symm
        rw [this]
        exact (destroyLoop_keeps hd :)

theorem release_ga {w : World} {a : Model.Emplace.Array} {w1 : World} {b : Model.Emplace.Array}
    (h : w.release a = some (w1, b)) : ∃ c, (ghost w).release (ga a) = some (ghost w1, c) ∧ ga c = ga b := by
  have := release_ghost w a
  rw [h] at this
  cases hr : (ghost w).release (ga a) with
  | none => rw [hr] at this; simp at this
  | some r =>
    rw [hr] at this
    simp only [Option.map_some, Option.some.injEq, Prod.mk.injEq] at this
    exact ⟨r.2, by rw [← this.1], this.2⟩

theorem emplace_ghost (w : World) (a : Model.Emplace.Array) (t : Bool) :
    (ghost w).emplace (ga a) t = (w.emplace a t).map fun r => (ghost r.1, ga r.2) := by
  unfold World.emplace
  cases hs : a.storage with
  | none =>
    have hg : (ga a).storage = none := hs
    simp only [hg]
    by_cases h1 : a.count < a.capacity <;> by_cases h2 : (ga a).count < (ga a).capacity <;> simp [h1, h2]
  | some p =>
    have hg : (ga a).storage = some p := hs
    have hc : (ga a).capacity = a.capacity := by simp [ga, hs]
    have hn : (ga a).count = a.count := rfl
    simp only [hg, hc, hn]
    by_cases h1 : a.count < a.capacity
    · rw [if_pos h1, if_pos h1]
      have hb : (ghost w).block p = w.block p := rfl
      rw [hb]
      cases w.block p with
      | none => rfl
      | some l =>
        simp only
        rcases l[a.count]? with _ | _ | e
        · rfl
        · cases t
          · simp [ghost, ga]
          · simp
        · rfl
    · rw [if_neg h1, if_neg h1]; rfl

/-- every operation other than a construction is that of the arrays without memory seen as arrays of no capacity -/
theorem step_ghost {w g : World} (o : Op) (ho : ∀ i cap, o ≠ .construct i cap)
    (h : (ghost w).step o = some g) : ∃ w', w.step o = some w' ∧ ghost w' = g := by
  cases o with
  | construct i cap => exact absurd rfl (ho i cap)
  | move i j =>
    simp only [World.step, ghost] at h
    cases hi : w.arr i with
    | some a => rw [hi] at h; simp at h
    | none =>
      cases hj : w.arr j with
      | none => rw [hi, hj] at h; simp at h
      | some b =>
        rw [hi, hj] at h
        simp only [Option.map_none, Option.map_some, Option.some.injEq] at h
        refine ⟨_, by simp only [World.step, hi, hj]; rfl, ?_⟩
        rw [← h]
        simp only [ghost, map_put, Option.map_some]
        rfl
  | moveAssign i j =>
    simp only [World.step] at h
    cases hi : w.arr i with
    | none => simp [ghost, hi] at h
    | some a =>
      cases hj : w.arr j with
      | none => simp [ghost, hi, hj] at h
      | some b =>
        have gi : (ghost w).arr i = some (ga a) := by simp [ghost, hi]
        have gj : (ghost w).arr j = some (ga b) := by simp [ghost, hj]
        rw [gi, gj] at h
        simp only at h
        cases hr : w.release a with
        | none =>
          have := release_ghost w a
          rw [hr] at this
          cases hq : (ghost w).release (ga a) with
          | none => rw [hq] at h; simp at h
          | some r => rw [hq] at this; simp at this
        | some r =>
          obtain ⟨w1, a1⟩ := r
          obtain ⟨c, hc1, hc2⟩ := release_ga hr
          rw [hc1] at h
          have hk : w1.arr = w.arr := release_keeps hr
          have hk2 : (ghost w1).arr = (ghost w).arr := by simp [ghost, hk]
          simp only [hk2] at h
          by_cases hij : j = i
          · subst hij
            simp only [put, if_true] at h
            refine ⟨{ w1 with arr := put (put (put w1.arr j (some a1)) j (some a1)) j (some ⟨0, 0, none⟩) }, ?_, ?_⟩
            · simp only [World.step, hi, hr]
              simp [put]
            · obtain rfl := Option.some.inj h
              simp only [ghost, map_put, Option.map_some, hk]
              congr 1
              funext k
              by_cases hkj : k = j <;> simp [put, hkj, ga]
          · have e1 : put (ghost w).arr i (some c) j = some (ga b) := by rw [put_ne _ _ hij]; exact gj
            have e2 : put w1.arr i (some a1) j = some b := by rw [put_ne _ _ hij, hk]; exact hj
            rw [e1] at h
            simp only at h
            refine ⟨_, by simp only [World.step, hi, hj, hr, e2]; rfl, ?_⟩
            obtain rfl := Option.some.inj h
            simp only [ghost, map_put, Option.map_some, hk]
            congr 1
            funext k
            by_cases hkj : k = j
            · simp [put, hkj, ga]
            · by_cases hki : k = i <;> simp [put, hkj, hki, ga]
  | destroy i =>
    simp only [World.step] at h
    cases hi : w.arr i with
    | none => simp [ghost, hi] at h
    | some a =>
      have gi : (ghost w).arr i = some (ga a) := by simp [ghost, hi]
      rw [gi] at h
      simp only at h
      cases hr : w.release a with
      | none =>
        have := release_ghost w a
        rw [hr] at this
        cases hq : (ghost w).release (ga a) with
        | none => rw [hq] at h; simp at h
        | some r => rw [hq] at this; simp at this
      | some r =>
        obtain ⟨w1, a1⟩ := r
        obtain ⟨c, hc1, hc2⟩ := release_ga hr
        rw [hc1] at h
        refine ⟨_, by simp only [World.step, hi, hr]; rfl, ?_⟩
        obtain rfl := Option.some.inj h
        simp only [ghost, map_put, Option.map_none]
  | emplace i t =>
    simp only [World.step] at h
    cases hi : w.arr i with
    | none => simp [ghost, hi] at h
    | some a =>
      have gi : (ghost w).arr i = some (ga a) := by simp [ghost, hi]
      rw [gi] at h
      simp only [emplace_ghost] at h
      cases hr : w.emplace a t with
      | none => rw [hr] at h; simp at h
      | some r =>
        obtain ⟨w1, a1⟩ := r
        rw [hr] at h
        refine ⟨_, by simp only [World.step, hi, hr]; rfl, ?_⟩
        obtain rfl := Option.some.inj h
        simp only [ghost, map_put, Option.map_some]
  | clear i =>
    simp only [World.step] at h
    cases hi : w.arr i with
    | none => simp [ghost, hi] at h
    | some a =>
      have gi : (ghost w).arr i = some (ga a) := by simp [ghost, hi]
      rw [gi] at h
      simp only [destroyAll_ghost] at h
      cases hr : w.destroyAll a with
      | none => rw [hr] at h; simp at h
      | some r =>
        obtain ⟨w1, a1⟩ := r
        rw [hr] at h
        refine ⟨_, by simp only [World.step, hi, hr]; rfl, ?_⟩
        obtain rfl := Option.some.inj h
        simp only [ghost, map_put, Option.map_some]

/-! ### The constructor -/

theorem mul_toNat {size : BitVec 64} {cap : Nat} (h : size.toNat * cap < 2 ^ 64) (hs : size.toNat ≠ 0) :
    (size * BitVec.ofNat 64 cap).toNat = size.toNat * cap := by
  have hc : cap < 2 ^ 64 := by
    have : cap ≤ size.toNat * cap := Nat.le_mul_of_pos_left _ (Nat.pos_of_ne_zero hs)
    omega
  rw [BitVec.toNat_mul, BitVec.toNat_ofNat, Nat.mod_eq_of_lt hc, Nat.mod_eq_of_lt h]

/-- enough bytes for the capacity -/
theorem construct_fits {size align : BitVec 64} {cap : Nat} (w : World) (hs : size.toNat ≠ 0) (ha : Spec.IsPow2 align.toNat)
    (hf : Fits size.toNat align.toNat cap) : constructF size align w true cap = some (w.construct cap) := by
  unfold constructF Verif.Model.EmplaceFail.construct World.construct
  by_cases hc : cap = 0
  · simp [hc]
  · rw [if_pos hc, if_pos hc]
    unfold Fits at hf
    have hm := mul_toNat (size := size) (cap := cap) (by omega) hs
    have hp : 0 < size.toNat * cap := Nat.mul_pos (Nat.pos_of_ne_zero hs) (Nat.pos_of_ne_zero hc)
    obtain ⟨a', s', h1, _, _, _, h5, _⟩ := Verif.Props.C66_aligned_alloc_partial (size * BitVec.ofNat 64 cap) align
      (fun e => by rw [e] at hm; simp at hm; omega) ha (by rw [hm]; omega)
    rw [h1]
    simp only [if_true]
    have : min cap (s'.toNat / size.toNat) = cap := by
      apply Nat.min_eq_left
      rw [Nat.le_div_iff_mul_le (Nat.pos_of_ne_zero hs), Nat.mul_comm]
      rw [hm] at h5; exact h5
    rw [this]

theorem construct_fails {size align : BitVec 64} {cap : Nat} (w : World) {r}
    (h : constructF size align w false cap = some r) : r = (w, ⟨0, cap, none⟩) := by
  unfold constructF Verif.Model.EmplaceFail.construct at h
  split at h
  · split at h
    · simp at h
    · simp at h; exact h.symm
  · simp at h; exact h.symm

/-- too few bytes for the capacity -/
theorem construct_short {size align : BitVec 64} {cap : Nat} (hc : cap < 2 ^ 64) (hs : size.toNat ≠ 0)
    (hf : ¬ Fits size.toNat align.toNat cap) {a bytes : BitVec 64}
    (h : Verif.Model.alignedAllocRequest (size * BitVec.ofNat 64 cap) align = some (a, bytes)) :
    bytes.toNat / size.toNat < cap := by
  rw [Nat.div_lt_iff_lt_mul (Nat.pos_of_ne_zero hs), Nat.mul_comm]
  by_cases hbig : 2 ^ 64 ≤ size.toNat * cap
  · have := bytes.isLt; omega
  · unfold Fits at hf
    have hm := mul_toNat (size := size) (cap := cap) (by omega) hs
    unfold Verif.Model.alignedAllocRequest at h
    split at h
    · simp at h
    · rename_i h0
      simp only [Option.some.injEq, Prod.mk.injEq] at h
      obtain ⟨h1, h2⟩ := h
      have hle : bytes.toNat ≤ (size * BitVec.ofNat 64 cap + a - 1).toNat := by
        rw [← h2, h1, BitVec.toNat_and]; exact Nat.and_le_left
      have ha : a.toNat = max align.toNat 16 := by
        rw [← h1]
        split
        · rename_i h3
          have : (16#64).toNat < align.toNat := h3
          simp at this
          omega
        · rename_i h3
          have : ¬ (16#64).toNat < align.toNat := h3
          simp at this ⊢
          omega
      have halt := a.isLt
      have e : (size * BitVec.ofNat 64 cap + a - 1).toNat = size.toNat * cap + a.toNat - 1 - 2 ^ 64 := by
        rw [BitVec.toNat_sub, BitVec.toNat_add, hm]
        simp
        omega
      omega

/-! ### Filling an array -/

/-- an array with fewer slots than its capacity cannot be filled -/
theorem fill_short (size align : BitVec 64) (i p cap : Nat) : ∀ (n k : Nat) (w : World) (l : List (Option Nat)),
    k + n = cap → w.arr i = some ⟨k, cap, some p⟩ → w.block p = some l → l.length < cap → k ≤ l.length →
    runF size align w (List.replicate n (.emplace i false, true)) = none := by
  intro n
  induction n with
  | zero => intro k w l h1 _ _ h4 h5; omega
  | succ n ih =>
    intro k w l h1 h2 h3 h4 h5
    simp only [List.replicate_succ, runF, Verif.Model.EmplaceFail.run, Verif.Model.EmplaceFail.step, World.step, h2, World.emplace]
    rw [if_pos (by omega)]
    simp only [h3]
    rcases hk : l[k]? with _ | _ | e
    · rfl
    · simp only [Bool.false_eq_true, if_false]
      have hlt : k < l.length := by
        rw [List.getElem?_eq_some_iff] at hk; exact hk.1
      exact ih (k + 1) _ (l.set k (some w.made)) (by omega) (put_same _ _ _) (put_same _ _ _) (by simpa using h4)
        (by simp; omega)
    · rfl

end Verif.Proofs.EmplaceFail
