import Verif.Proofs.ForEach
/-! C38 (for_each over an index range), C39 (for_each over a container). -/
namespace Verif.Props
open Verif.Spec.ForEach Verif.Model.ForEach Verif.Proofs.ForEach

/-- **C38** for 32 and 64 bit integer types and a pool with at least one worker, the batches enqueued by
    for_each(start, end, task), taken in order, call the task with exactly the indices of the range, each once and
    ascending; there are as many batches as workers (or as indices, if those are fewer), numbered 0, 1, …, and no
    batch is empty.
    Missing: a descending range which starts at the largest value of its type, and, for signed types, ranges whose
    length does not fit the type (see the `_violated` theorems). -/
theorem C38_for_each_index_partial {w : Nat} (hw : w = 32 ∨ w = 64) (signed : Bool) (workers : BitVec 64)
    (start stop : BitVec w) (hW : workers ≠ 0#64)
    (hmax : val signed stop < val signed start → ∃ v : BitVec w, val signed start < val signed v)
    (hlen : signed = true → (val signed stop - val signed start).natAbs < 2 ^ (w - 1)) :
    ∃ batches, forEach signed workers start stop = some batches ∧
      (batches.flatMap fun b => b.calls signed).map (val signed) = indices (val signed start) (val signed stop) ∧
      batches.length = min (val signed stop - val signed start).natAbs workers.toNat ∧
      ∀ k (h : k < batches.length), batches[k].index = k ∧ batches[k].calls signed ≠ [] := by
  obtain ⟨l, h1, h2, h3, h4⟩ := forEach_spec hw signed workers start stop hW hmax (by
    intro hs
    have h := hlen hs
    have : ((2 ^ (w - 1) : Nat) : Int) = (2 : Int) ^ (w - 1) := by simp
    omega)
  refine ⟨l, h1, ?_, by rw [h3]; congr 1; omega, ?_⟩
  · rw [List.map_flatMap]; exact h2
  · intro k hk
    obtain ⟨h5, h6⟩ := h4 k hk
    refine ⟨h5, fun he => ?_⟩
    have := calls_val hw signed l[k] (by omega)
    rw [he, List.map_nil] at this
    have hl := congrArg List.length this
    simp only [List.length_nil, upFrom, List.length_map, List.length_range] at hl
    omega

-- a descending range of a signed type
example : (forEach true 2#64 (6#32) (BitVec.ofInt 32 (-1))) =
    some [⟨0#32, 4#32, 0⟩, ⟨4#32, 7#32, 1⟩] := by decide +kernel
example : val true (BitVec.ofInt 32 (-1)) < val true 6#32 ∧ val true 6#32 < val true 7#32 ∧
    (val true (BitVec.ofInt 32 (-1)) - val true 6#32).natAbs < 2 ^ 31 := by decide
example : indices 6 (-1) = [0, 1, 2, 3, 4, 5, 6] := by decide

/-- **C38** for_each(end, task) is for_each over the range from zero -/
theorem C38_for_each_to_partial {w : Nat} (hw : w = 32 ∨ w = 64) (signed : Bool) (workers : BitVec 64)
    (stop : BitVec w) (hW : workers ≠ 0#64) (hmin : signed = true → stop ≠ BitVec.intMin w) :
    ∃ batches, forEachTo signed workers stop = some batches ∧
      (batches.flatMap fun b => b.calls signed).map (val signed) = indices 0 (val signed stop) := by
  have h0 : val signed (0#w) = 0 := by cases signed <;> simp [val]
  have hone : val signed (0#w) < val signed (1#w) := by
    rcases hw with rfl | rfl <;> cases signed <;> decide
  obtain ⟨l, h1, h2, _, _⟩ := C38_for_each_index_partial hw signed workers (0#w) stop hW (fun _ => ⟨1#w, hone⟩) (by
    intro hs
    subst hs
    rw [h0]
    have hm := hmin rfl
    have h2 := BitVec.two_mul_toInt_lt (x := stop)
    have h3 := BitVec.le_two_mul_toInt (x := stop)
    have h4 : stop.toInt ≠ (BitVec.intMin w).toInt := fun h => hm (BitVec.eq_of_toInt_eq h)
    simp only [val, if_true]
    rcases hw with rfl | rfl <;> simp [BitVec.toInt_intMin] at h4 ⊢ <;> omega)
  rw [h0] at h2
  exact ⟨l, h1, h2⟩

/-- **C38 is violated**: descending from the largest value of an unsigned type wraps the end of the last batch to
    zero, so the last batch calls nothing. With one worker no index is visited at all, with two workers half of
    them. -/
theorem C38_descending_from_max_violated :
    (forEach false 1#64 (0xFFFFFFFF#32) (0xFFFFFFFD#32) = some [⟨0xFFFFFFFE#32, 0#32, 0⟩] ∧
      (⟨0xFFFFFFFE#32, 0#32, 0⟩ : Batch (BitVec 32)).calls false = [] ∧
      indices (val false 0xFFFFFFFF#32) (val false 0xFFFFFFFD#32) = [4294967294, 4294967295]) ∧
    (∀ stop : BitVec 32, stop ≠ 0xFFFFFFFF#32 →
      ∃ batches, forEach false 1#64 (0xFFFFFFFF#32) stop = some batches ∧
        (batches.flatMap fun b => b.calls false) = []) := by
  have hnil : ∀ b : BitVec 32, ∀ i, (⟨b, 0#32, i⟩ : Batch (BitVec 32)).calls false = [] := by
    intro b i
    unfold Batch.calls
    rw [show (2 : Nat) ^ 32 = 4294967295 + 1 from rfl, batchLoop]
    rw [if_neg]
    simp [less, BitVec.ult]
  refine ⟨⟨by decide +kernel, hnil _ _, by decide +kernel⟩, ?_⟩
  intro stop hs
  have hlt := stop.isLt
  have hne : stop.toNat ≠ 0xFFFFFFFF := fun h => hs (BitVec.eq_of_toNat_eq h)
  have e1 : greater false (0xFFFFFFFF#32) stop = true := by
    rw [greater_iff]
    simp only [val, Bool.false_eq_true, if_false, BitVec.toNat_ofNat]
    omega
  have ho : orient false (0xFFFFFFFF#32) stop = some (stop + 1#32, 0#32) := by
    unfold orient
    rw [if_pos e1]; rfl
  refine ⟨[⟨stop + 1#32, 0#32, 0⟩], ?_, by simp only [List.flatMap_cons, List.flatMap_nil, hnil]; rfl⟩
  unfold forEach
  rw [if_neg (fun h => hs h.symm), ho]
  have hj : ((0#32 - (stop + 1#32)).setWidth 64).toNat = 0xFFFFFFFF - stop.toNat := by
    simp only [BitVec.toNat_setWidth, BitVec.toNat_sub, BitVec.toNat_add, BitVec.toNat_ofNat]; omega
  generalize hjj : (0#32 - (stop + 1#32)).setWidth 64 = j at hj
  have hg : Gen.init j 1#64 = some ⟨j, j, 0#64⟩ := by
    unfold Gen.init
    rw [if_neg (by decide)]
    congr 2
    · exact BitVec.eq_of_toNat_eq (by simp [BitVec.toNat_udiv])
    · exact BitVec.eq_of_toNat_eq (by simp [BitVec.toNat_umod, Nat.mod_one])
  have hjn : j ≠ 0#64 := by intro h; rw [h] at hj; simp only [BitVec.toNat_ofNat] at hj; omega
  have hnext : (⟨j, j, 0#64⟩ : Gen).next = (j, ⟨0#64, j, 0#64⟩) := by
    simp [Gen.next, hjn]
  have hz : (⟨0#64, j, 0#64⟩ : Gen).next.1 = 0#64 := rfl
  simp only [jobCount, Bool.false_eq_true, if_false, hjj, hg, hnext]
  rw [dispatch]
  simp only [hz, ne_eq, not_true_eq_false, if_false]
  have hoff : offAdd false (stop + 1#32) j = 0#32 := by
    apply BitVec.eq_of_toNat_eq
    simp only [offAdd, Bool.false_eq_true, if_false, BitVec.toNat_setWidth, BitVec.toNat_add, BitVec.toNat_ofNat, hj]
    omega
  rw [hoff]

/-- **C38 is violated**: for signed types the length of the range, and the start of a descending range, are computed
    with overflow (undefined behaviour) -/
theorem C38_signed_overflow_violated :
    (∀ workers : BitVec 64, forEach true workers (BitVec.intMin 32) (BitVec.intMax 32) = none) ∧
    (∀ (workers : BitVec 64) (stop : BitVec 32), stop ≠ BitVec.intMax 32 →
      forEach true workers (BitVec.intMax 32) stop = none) := by
  refine ⟨fun workers => ?_, fun workers stop h => ?_⟩
  · unfold forEach
    rw [if_neg (by decide)]
    have h1 : orient true (BitVec.intMin 32) (BitVec.intMax 32) = some (BitVec.intMin 32, BitVec.intMax 32) := by decide
    have h2 : jobCount true (BitVec.intMin 32) (BitVec.intMax 32) = none := by decide
    rw [h1]
    simp only [h2]
  · unfold forEach
    rw [if_neg (fun e => h e.symm)]
    have h1 : orient true (BitVec.intMax 32) stop = none := by
      unfold orient
      rw [if_pos]
      · rfl
      · rw [greater_iff]
        have h2 := BitVec.two_mul_toInt_lt (x := stop)
        have h4 : stop.toInt ≠ (BitVec.intMax 32).toInt := fun e => h (BitVec.eq_of_toInt_eq e)
        have h5 : (BitVec.intMax 32).toInt = 2147483647 := by decide
        simp only [val, if_true]
        rw [h5] at h4 ⊢
        omega
    rw [h1]

/-- **C39** for_each over a container or iterator range of `n` elements: batch `k` is number `k`, starts where the
    batch before it stopped (the first at the first element), no batch is empty, the last one stops at the end, there
    are as many batches as workers (or as elements, if those are fewer), and any two batches differ in size by at
    most one. Together they visit every element exactly once, in order. -/
theorem C39_for_each_container (workers : BitVec 64) (n : Nat) (hW : workers ≠ 0#64) (hn : n < 2 ^ 63) :
    ∃ batches, forEachIter workers n = some batches ∧
      batches.length = min n workers.toNat ∧
      (∀ k (h : k < batches.length), batches[k].index = k ∧ batches[k].start < batches[k].stop) ∧
      (∀ h : 0 < batches.length, batches[0].start = 0 ∧ (batches[batches.length - 1]'(by omega)).stop = n) ∧
      (∀ k (h : k + 1 < batches.length), batches[k + 1].start = batches[k].stop) ∧
      (∀ k l (hk : k < batches.length) (hl : l < batches.length),
        batches[k].stop - batches[k].start ≤ batches[l].stop - batches[l].start + 1) ∧
      ∃ visits, batches.mapM Batch.visits = some visits ∧ visits.flatten = List.range n := by
  obtain ⟨l, h1, h2, h3⟩ := forEachIter_spec workers n hW hn
  have hWpos : 0 < workers.toNat := by
    have : workers.toNat ≠ 0 := fun h => hW (BitVec.eq_of_toNat_eq (by rw [h]; rfl))
    omega
  refine ⟨l, h1, h2, ?_, ?_, ?_, ?_, ?_⟩
  · intro k hk
    rw [h3 k hk]
    have := pre_succ n workers.toNat k
    have := bsize_pos (J := n) (W := workers.toNat) (i := k) hWpos (by unfold count; omega)
    exact ⟨rfl, by show pre n workers.toNat k < pre n workers.toNat (k + 1); omega⟩
  · intro h
    rw [h3 0 h, h3 (l.length - 1) (by omega)]
    refine ⟨pre_zero _ _, ?_⟩
    show pre n workers.toNat (l.length - 1 + 1) = n
    rw [show l.length - 1 + 1 = count n workers.toNat by unfold count; omega]
    exact pre_count hWpos
  · intro k hk
    rw [h3 (k + 1) hk, h3 k (by omega)]
  · intro k m hk hm
    rw [h3 k hk, h3 m hm]
    show pre n workers.toNat (k + 1) - pre n workers.toNat k ≤
      pre n workers.toNat (m + 1) - pre n workers.toNat m + 1
    rw [pre_succ, pre_succ]
    unfold bsize
    split <;> split <;> omega
  · have key : ∀ m, m ≤ l.length → ∃ v, (l.take m).mapM Batch.visits = some v ∧
        v.flatten = List.range (pre n workers.toNat m) := by
      intro m
      induction m with
      | zero => intro _; exact ⟨[], rfl, by rw [pre_zero]; rfl⟩
      | succ m ih =>
        intro hm
        obtain ⟨v, hv1, hv2⟩ := ih (by omega)
        have hps := pre_succ n workers.toNat m
        refine ⟨v ++ [(List.range (bsize n workers.toNat m)).map (pre n workers.toNat m + ·)], ?_, ?_⟩
        · have ht : l.take (m + 1) = l.take m ++ [l[m]] := by rw [List.take_append_getElem]
          rw [ht, List.mapM_append, hv1]
          have hvis : Batch.visits l[m] =
              some ((List.range (bsize n workers.toNat m)).map (pre n workers.toNat m + ·)) := by
            rw [h3 m (by omega)]
            unfold Batch.visits
            rw [if_pos (by show pre n workers.toNat m ≤ pre n workers.toNat (m + 1); omega)]
            show some ((List.range (pre n workers.toNat (m + 1) - pre n workers.toNat m)).map _) = _
            rw [hps, Nat.add_sub_cancel_left]
          simp [hvis]
        · rw [List.flatten_append, hv2, hps, List.range_add]
          simp
    obtain ⟨v, hv1, hv2⟩ := key l.length (Nat.le_refl _)
    rw [List.take_length] at hv1
    refine ⟨v, hv1, ?_⟩
    rw [hv2, h2]
    show List.range (pre n workers.toNat (count n workers.toNat)) = _
    rw [pre_count hWpos]

example : forEachIter 3#64 8 = some [⟨0, 3, 0⟩, ⟨3, 6, 1⟩, ⟨6, 8, 2⟩] := by decide +kernel
example : forEachIter 3#64 2 = some [⟨0, 1, 0⟩, ⟨1, 2, 1⟩] := by decide +kernel

end Verif.Props
