import Verif.Proofs.PoolSizing
/-! C40 (sizing and memory layout of a thread pool). -/
namespace Verif.Props
open Verif.Spec.PoolSizing Verif.Model.PoolSizing Verif.Proofs.PoolSizing

/-- **C40** the number of workers: what was asked for (the hardware concurrency if that was zero), but never more than
    64 per hardware thread nor than 1024, and never zero -/
theorem C40_workers (hw : BitVec 32) (requested : BitVec 64) :
    (calcWorkers hw requested).toNat =
      min (if requested.toNat = 0 then max hw.toNat 1 else requested.toNat) (min (64 * max hw.toNat 1) 1024) ∧
    1 ≤ (calcWorkers hw requested).toNat ∧ (calcWorkers hw requested).toNat ≤ 1024 := by
  have h := calcWorkers_spec hw requested
  rw [Nat.mul_comm 64]
  refine ⟨h, ?_, ?_⟩
  · rw [h]; split <;> omega
  · rw [h]; omega

example : calcWorkers 8#32 0#64 = 8#64 ∧ calcWorkers 0#32 0#64 = 1#64 ∧ calcWorkers 4#32 1000#64 = 256#64 ∧
    calcWorkers 64#32 5000#64 = 1024#64 := by decide

/-- **C40** the size of each worker's queue, computed in floating point, is the exact quotient rounded up: the
    requested total (1024 if zero) divided by the number of workers, but at most an equal share of 4194304.
    Missing: one worker and a request within 1024 of 2^64 (see C40_queue_size_violated). -/
theorem C40_queue_size_partial (workers requested : BitVec 64) (h1 : 1 ≤ workers.toNat) (h2 : workers.toNat ≤ 1024)
    (h3 : workers.toNat = 1 → requested.toNat < 2 ^ 64 - 1024) :
    ∃ q, calcQueueSize workers requested = some q ∧
      q.toNat = min (ceilDiv (if requested.toNat = 0 then 1024 else requested.toNat) workers.toNat)
        (4194304 / workers.toNat) :=
  (calcQueueSize_spec workers requested h1 h2).1 (fun h => by have := h3 h.1; omega)

example : calcQueueSize 3#64 1000#64 = some 334#64 ∧ calcQueueSize 7#64 0#64 = some 147#64 ∧
    calcQueueSize 3#64 (BitVec.allOnes 64) = some 1398101#64 := by decide +kernel

/-- **C40 is violated**: with one worker, a request for (nearly) the largest size_t, for example to mean "unlimited",
    is rounded to 2^64 as a double, and the conversion back to size_t is undefined. These are the only arguments for
    which the computation is undefined. -/
theorem C40_queue_size_violated :
    (∀ requested : BitVec 64, 2 ^ 64 - 1024 ≤ requested.toNat → calcQueueSize 1#64 requested = none) ∧
    (∀ workers requested : BitVec 64, 1 ≤ workers.toNat → workers.toNat ≤ 1024 →
      calcQueueSize workers requested = none → workers = 1#64 ∧ 2 ^ 64 - 1024 ≤ requested.toNat) := by
  refine ⟨fun n h => (calcQueueSize_spec 1#64 n (by decide) (by decide)).2 ⟨by decide, h⟩, fun w n h1 h2 h => ?_⟩
  have key : w.toNat = 1 ∧ 2 ^ 64 - 1024 ≤ n.toNat := Classical.byContradiction fun hn => by
    obtain ⟨q, hq, _⟩ := (calcQueueSize_spec w n h1 h2).1 hn
    rw [h] at hq; exact absurd hq (by simp)
  exact ⟨BitVec.eq_of_toNat_eq key.1, key.2⟩

/-- the parts of the pool's allocation as intervals of offsets: its own object, the queues, the workers, and the task
    buffer of each queue -/
def poolRegions (sStorage sQueue sWorker : BitVec 64) (p : Pool) : List (Nat × Nat) :=
  (0, sStorage.toNat) ::
    ((List.range p.workers.toNat).map fun i =>
      ((p.queueAt sQueue (BitVec.ofNat 64 i)).toNat, (p.queueAt sQueue (BitVec.ofNat 64 i)).toNat + sQueue.toNat)) ++
    ((List.range p.workers.toNat).map fun i =>
      ((p.workerAt sWorker (BitVec.ofNat 64 i)).toNat,
        (p.workerAt sWorker (BitVec.ofNat 64 i)).toNat + sWorker.toNat)) ++
    ((List.range p.workers.toNat).map fun i =>
      ((p.queueTasks (BitVec.ofNat 64 i)).toNat, (p.queueTasks (BitVec.ofNat 64 i)).toNat + p.queueBytes.toNat))

theorem regions_pairwise (n base step : Nat) (f : Nat → Nat × Nat)
    (hf : ∀ i, i < n → f i = (base + step * i, base + step * i + step)) :
    ((List.range n).map f).Pairwise (fun a b => Apart a.1 a.2 b.1 b.2) ∧
    ∀ r ∈ (List.range n).map f, base ≤ r.1 ∧ r.2 ≤ base + step * n := by
  constructor
  · rw [List.pairwise_map]
    refine List.Pairwise.imp_of_mem ?_ List.pairwise_lt_range
    intro i j hi hj hij
    rw [List.mem_range] at hi hj
    rw [hf i hi, hf j hj]
    left
    show base + step * i + step ≤ base + step * j
    have : step * (i + 1) ≤ step * j := Nat.mul_le_mul_left step hij
    rw [Nat.mul_succ] at this
    omega
  · intro r hr
    obtain ⟨i, hi, rfl⟩ := List.mem_map.mp hr
    rw [List.mem_range] at hi
    rw [hf i hi]
    have : step * (i + 1) ≤ step * n := Nat.mul_le_mul_left step hi
    rw [Nat.mul_succ] at this
    exact ⟨Nat.le_add_right _ _, by show base + step * i + step ≤ _; omega⟩

/-- **C40** creating a pool (for any reasonable sizes of its internal objects) gives a pool whose workers() and
    capacity() are consistent with the request: each queue holds at least one task, the task buffers take at most
    256 MB, a request of up to 4193281 tasks is met, with less than one task per worker to spare; and all parts of its
    memory block lie within it, aligned, and do not overlap.
    Missing: as in C40_queue_size_partial. -/
theorem C40_create_partial (hw : BitVec 32) (sStorage sQueue sWorker workers tasks : BitVec 64)
    (hS : sStorage.toNat < 2 ^ 20) (hQ : sQueue.toNat < 2 ^ 20) (hW : sWorker.toNat < 2 ^ 20) (hW0 : 0 < sWorker.toNat)
    (hreq : calcWorkers hw workers = 1#64 → tasks.toNat < 2 ^ 64 - 1024) :
    ∃ p, create hw sStorage sQueue sWorker workers tasks = some p ∧
      p.workers = calcWorkers hw workers ∧
      calcQueueSize p.workers tasks = some p.queueSize ∧
      1 ≤ p.queueSize.toNat ∧
      p.capacity.toNat = p.workers.toNat * p.queueSize.toNat ∧
      64 * p.capacity.toNat ≤ 256 * 1024 * 1024 ∧
      (1 ≤ tasks.toNat → tasks.toNat ≤ 4193281 →
        tasks.toNat ≤ p.capacity.toNat ∧ p.capacity.toNat < tasks.toNat + p.workers.toNat) ∧
      p.layout.total.toNat < 2 ^ 32 ∧
      (poolRegions sStorage sQueue sWorker p).Pairwise (fun a b => Apart a.1 a.2 b.1 b.2) ∧
      (∀ r ∈ poolRegions sStorage sQueue sWorker p, r.2 ≤ p.layout.total.toNat) ∧
      (∀ i, i < p.workers.toNat → (p.queueTasks (BitVec.ofNat 64 i)).toNat % 64 = 0) := by
  obtain ⟨_, hw1, hw2⟩ := C40_workers hw workers
  unfold create
  generalize hwc : calcWorkers hw workers = w at *
  obtain ⟨q, hq, hqv⟩ := C40_queue_size_partial w tasks hw1 hw2 (fun h => hreq (BitVec.eq_of_toNat_eq h))
  have hqle : q.toNat ≤ 4194304 / w.toNat := by rw [hqv]; exact Nat.min_le_right _ _
  have hmulle : w.toNat * q.toNat ≤ 4194304 :=
    Nat.le_trans (Nat.mul_le_mul_left _ hqle) (Nat.mul_div_le _ _)
  have hq4 : q.toNat ≤ 4194304 := Nat.le_trans hqle (Nat.div_le_self _ _)
  have hq1 : 1 ≤ q.toNat := by
    rw [hqv, Nat.le_min]
    constructor
    · unfold ceilDiv
      exact Nat.div_pos (by split <;> omega) (by omega)
    · exact Nat.div_pos (by omega) (by omega)
  have hwq : (w * q).toNat = w.toNat * q.toNat := mul_small _ _ (by omega)
  obtain ⟨l, hl, l1, l2, l3, l4, l5, l6, l7, l8, l9, l10, l11⟩ :=
    layout_spec sStorage sQueue sWorker w (w * q) hS hQ hW hw2 (by omega)
  have hWn : sWorker ≠ 0#64 := by intro h; rw [h] at hW0; simp at hW0
  have hww : (l.workersEnd - l.workersStart) / sWorker = w := by
    apply BitVec.eq_of_toNat_eq
    have : (l.workersEnd - l.workersStart).toNat = sWorker.toNat * w.toNat := by
      rw [BitVec.toNat_sub, l4]; have := l.workersStart.isLt; omega
    rw [BitVec.toNat_udiv, this, Nat.mul_div_cancel_left _ hW0]
  have hwn : w ≠ 0#64 := by intro h; rw [h] at hw1; simp at hw1
  have hqq : (l.tasksEnd - l.tasksStart) / 64#64 / w = q := by
    apply BitVec.eq_of_toNat_eq
    have : (l.tasksEnd - l.tasksStart).toNat = 64 * (w.toNat * q.toNat) := by
      rw [BitVec.toNat_sub, l6, hwq]; have := l.tasksStart.isLt; omega
    rw [BitVec.toNat_udiv, BitVec.toNat_udiv, this]
    simp only [BitVec.toNat_ofNat]
    rw [show (64 % 2 ^ 64 : Nat) = 64 from rfl, Nat.mul_div_cancel_left _ (by omega), Nat.mul_div_cancel_left _ (by omega)]
  refine ⟨⟨l, w, q⟩, ?_, rfl, hq, hq1, hwq, ?_, ?_, l11, ?_⟩
  · simp only [hq, hl, hWn, if_false, hww, hwn, hqq]
  · show 64 * (w * q).toNat ≤ _
    rw [hwq]; omega
  · intro ht1 ht2
    show tasks.toNat ≤ (w * q).toNat ∧ (w * q).toNat < tasks.toNat + w.toNat
    rw [hwq]
    have hc : ceilDiv tasks.toNat w.toNat ≤ 4194304 / w.toNat := by
      unfold ceilDiv
      exact Nat.div_le_div_right (by omega)
    rw [if_neg (by omega), Nat.min_eq_left hc] at hqv
    rw [hqv]
    unfold ceilDiv
    have := Nat.div_add_mod (tasks.toNat + w.toNat - 1) w.toNat
    have := Nat.mod_lt (tasks.toNat + w.toNat - 1) (by omega : 0 < w.toNat)
    omega
  · have hqw : sQueue.toNat * w.toNat < 2 ^ 20 * 1025 := Nat.mul_lt_mul'' hQ (by omega)
    have hsw : sWorker.toNat * w.toNat < 2 ^ 20 * 1025 := Nat.mul_lt_mul'' hW (by omega)
    rw [l7] at l11
    have hofi : ∀ i, i < w.toNat → (BitVec.ofNat 64 i).toNat = i := by
      intro i hi; rw [BitVec.toNat_ofNat]; omega
    have hb : (64#64 * q).toNat = 64 * q.toNat := by
      rw [mul_small _ _ (by simp only [BitVec.toNat_ofNat]; omega)]; rfl
    have fq : ∀ i, i < w.toNat → (l.queuesStart + sQueue * BitVec.ofNat 64 i).toNat =
        l.queuesStart.toNat + sQueue.toNat * i := by
      intro i hi
      have := Nat.mul_le_mul_left sQueue.toNat (Nat.le_of_lt hi)
      rw [BitVec.toNat_add, mul_small _ _ (by rw [hofi i hi]; omega), hofi i hi]; omega
    have fw : ∀ i, i < w.toNat → (l.workersStart + sWorker * BitVec.ofNat 64 i).toNat =
        l.workersStart.toNat + sWorker.toNat * i := by
      intro i hi
      have := Nat.mul_le_mul_left sWorker.toNat (Nat.le_of_lt hi)
      rw [BitVec.toNat_add, mul_small _ _ (by rw [hofi i hi]; omega), hofi i hi]; omega
    have ft : ∀ i, i < w.toNat → (l.tasksStart + 64#64 * q * BitVec.ofNat 64 i).toNat =
        l.tasksStart.toNat + 64 * q.toNat * i := by
      intro i hi
      have := Nat.mul_le_mul_left (64 * q.toNat) (Nat.le_of_lt hi)
      have e : 64 * q.toNat * w.toNat = 64 * (w.toNat * q.toNat) := by rw [Nat.mul_assoc, Nat.mul_comm q.toNat]
      rw [BitVec.toNat_add, mul_small _ _ (by rw [hofi i hi, hb]; omega), hofi i hi, hb]; omega
    obtain ⟨pq1, pq2⟩ := regions_pairwise w.toNat l.queuesStart.toNat sQueue.toNat
      (fun i => ((l.queuesStart + sQueue * BitVec.ofNat 64 i).toNat,
        (l.queuesStart + sQueue * BitVec.ofNat 64 i).toNat + sQueue.toNat)) (fun i hi => by simp only [fq i hi])
    obtain ⟨pw1, pw2⟩ := regions_pairwise w.toNat l.workersStart.toNat sWorker.toNat
      (fun i => ((l.workersStart + sWorker * BitVec.ofNat 64 i).toNat,
        (l.workersStart + sWorker * BitVec.ofNat 64 i).toNat + sWorker.toNat)) (fun i hi => by simp only [fw i hi])
    obtain ⟨pt1, pt2⟩ := regions_pairwise w.toNat l.tasksStart.toNat (64 * q.toNat)
      (fun i => ((l.tasksStart + 64#64 * q * BitVec.ofNat 64 i).toNat,
        (l.tasksStart + 64#64 * q * BitVec.ofNat 64 i).toNat + (64#64 * q).toNat))
      (fun i hi => by simp only [ft i hi, hb])
    have e : 64 * q.toNat * w.toNat = 64 * (w.toNat * q.toNat) := by rw [Nat.mul_assoc, Nat.mul_comm q.toNat]
    rw [hwq] at l6
    rw [← l2] at pq2
    rw [← l4] at pw2
    rw [e, ← l6] at pt2
    unfold poolRegions Pool.queueAt Pool.workerAt Pool.queueTasks Pool.queueBytes
    simp only [l7]
    refine ⟨?_, ?_, ?_⟩
    · rw [List.pairwise_append, List.pairwise_append, List.pairwise_cons]
      refine ⟨⟨⟨?_, pq1⟩, pw1, ?_⟩, pt1, ?_⟩
      · intro r hr
        left
        have := (pq2 r hr).1
        show sStorage.toNat ≤ r.1
        omega
      · intro a ha b hb
        left
        have h1 := (pw2 b hb).1
        rcases List.mem_cons.mp ha with rfl | ha
        · show sStorage.toNat ≤ b.1; omega
        · have h2 := (pq2 a ha).2
          omega
      · intro a ha b hb
        left
        have h1 := (pt2 b hb).1
        rcases List.mem_append.mp ha with ha | ha
        · rcases List.mem_cons.mp ha with rfl | ha
          · show sStorage.toNat ≤ b.1; omega
          · have h2 := (pq2 a ha).2
            omega
        · have h2 := (pw2 a ha).2
          omega
    · intro r hr
      rcases List.mem_append.mp hr with hr | hr
      · rcases List.mem_append.mp hr with hr | hr
        · rcases List.mem_cons.mp hr with rfl | hr
          · show sStorage.toNat ≤ _; omega
          · have := (pq2 r hr).2; omega
        · have := (pw2 r hr).2; omega
      · exact (pt2 r hr).2
    · intro i hi
      rw [ft i hi, Nat.mul_assoc]
      omega

example : (create 8#32 400#64 128#64 96#64 0#64 1000#64).map (fun p => (p.workers, p.capacity, p.layout.total)) =
    some (8#64, 1000#64, 66240#64) := by decide +kernel

end Verif.Props
