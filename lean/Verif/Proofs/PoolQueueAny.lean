import Verif.Proofs.PoolQueue
/-! The ring buffer over arbitrarily long histories: right when the capacity divides 2^64, wrong for capacity 3. -/
namespace Verif.Proofs.Pool
open Verif.Spec.Pool Verif.Model.Pool

/-- `q` stores the list `l`; the counters may have wrapped -/
def QAny (cap : Nat) (q : Queue) (l : List Nat) : Prop :=
  ∃ f : Nat, q.front = BitVec.ofNat 64 f ∧ q.back = BitVec.ofNat 64 (f + l.length) ∧
    l.length ≤ cap ∧ (∀ j (h : j < l.length), q.slots ((f + j) % cap) = some l[j]) ∧
    (∀ i < cap, (∀ j < l.length, i ≠ (f + j) % cap) → q.slots i = none)

theorem QAny.congr {cap q q' l} (h : QAny cap q l) (h1 : q'.slots = q.slots) (h2 : q'.front = q.front)
    (h3 : q'.back = q.back) : QAny cap q' l := by
  unfold QAny at *
  rw [h1, h2, h3]; exact h

theorem QAny.le_cap {cap q l} (h : QAny cap q l) : l.length ≤ cap := by
  obtain ⟨f, -, -, h, -⟩ := h; exact h

theorem QAny.size_toNat {cap q l} (h : QAny cap q l) (hc : cap < 2 ^ 64) : q.size.toNat = l.length := by
  obtain ⟨f, h2, h3, h4, -⟩ := h
  unfold Queue.size
  rw [h2, h3]
  simp only [BitVec.toNat_sub, BitVec.toNat_ofNat]
  omega

theorem QAny.empty_iff {cap q l} (h : QAny cap q l) (hc : cap < 2 ^ 64) : q.empty = true ↔ l = [] := by
  obtain ⟨f, h2, h3, h4, -⟩ := h
  unfold Queue.empty
  rw [h2, h3, beq_iff_eq]
  constructor
  · intro e
    have := congrArg BitVec.toNat e
    simp only [BitVec.toNat_ofNat] at this
    exact List.length_eq_zero_iff.mp (by omega)
  · rintro rfl; simp

theorem QAny.full_iff {cap q l} (h : QAny cap q l) (hc : cap < 2 ^ 64) : q.full cap = true ↔ l.length = cap := by
  have h1 := h.size_toNat hc
  have h2 := h.le_cap
  unfold Queue.full
  rw [h1, decide_eq_true_iff]; omega

theorem QAny.acquire {cap q l} (h : QAny cap q l) (hd : cap ∣ 2 ^ 64) (hl : l.length < cap) (t : Nat) :
    (q.acquire cap t).2 = false ∧ QAny cap (q.acquire cap t).1 (l ++ [t]) := by
  obtain ⟨f, h2, h3, h4, h5, h6⟩ := h
  have hback : q.back.toNat % cap = (f + l.length) % cap := by
    rw [h3, BitVec.toNat_ofNat, Nat.mod_mod_of_dvd _ hd]
  have hfree : q.slots ((f + l.length) % cap) = none := by
    apply h6 _ (Nat.mod_lt _ (by omega))
    intro j hj e
    exact mod_ne (f := f) hj (by omega) e.symm
  refine ⟨by simp [Queue.acquire, hback, hfree], f, h2, ?_, ?_, ?_, ?_⟩
  · simp only [Queue.acquire, h3, List.length_append, List.length_singleton]
    rw [← Nat.add_assoc]
    apply BitVec.eq_of_toNat_eq
    simp [BitVec.toNat_add]
  · simp; omega
  · intro j hj
    simp only [Queue.acquire, hback]
    rw [List.length_append, List.length_singleton] at hj
    by_cases hjl : j = l.length
    · subst hjl; simp
    · rw [upd_ne _ _ (mod_ne (f := f) (by omega) (by omega)), h5 j (by omega),
        List.getElem_append_left (by omega)]
  · intro i hi hne
    simp only [Queue.acquire, hback]
    rw [List.length_append, List.length_singleton] at hne
    rw [upd_ne _ _ (hne l.length (by omega))]
    exact h6 i hi (fun j hj => hne j (by omega))

theorem QAny.popFront {cap q t l} (h : QAny cap q (t :: l)) (hd : cap ∣ 2 ^ 64) :
    ∃ q', q.popFront cap = some (t, q') ∧ QAny cap q' l ∧ q'.terminated = q.terminated := by
  obtain ⟨f, h2, h3, h4, h5, h6⟩ := h
  rw [List.length_cons] at h3 h4
  have hf : (q.front + 0#64).toNat % cap = f % cap := by
    rw [BitVec.add_zero, h2, BitVec.toNat_ofNat, Nat.mod_mod_of_dvd _ hd]
  have h0 := h5 0 (by simp)
  simp only [Nat.add_zero, List.getElem_cons_zero] at h0
  refine ⟨{ q with slots := upd q.slots (f % cap) none, front := q.front + 1#64 },
    by simp only [Queue.popFront, hf, h0], ⟨f + 1, ?_, ?_, by omega, ?_, ?_⟩, rfl⟩
  · simp only [h2]
    apply BitVec.eq_of_toNat_eq
    simp [BitVec.toNat_add]
  · simp only [h3]; congr 1; omega
  · intro j hj
    have hne := mod_ne (f := f) (j := 0) (k := j + 1) (cap := cap) (by omega) (by omega)
    simp only [Nat.add_zero] at hne
    have e : f + 1 + j = f + (j + 1) := by omega
    rw [e]
    show upd q.slots (f % cap) none _ = _
    rw [upd_ne _ _ hne.symm, h5 (j + 1) (by simp; omega), List.getElem_cons_succ]
  · intro i hi hne
    show upd q.slots (f % cap) none i = none
    by_cases hif : i = f % cap
    · subst hif; simp
    · rw [upd_ne _ _ hif]
      apply h6 i hi
      intro j hj
      cases j with
      | zero => simpa using hif
      | succ j =>
        rw [List.length_cons] at hj
        have := hne j (by omega)
        have e : f + 1 + j = f + (j + 1) := by omega
        rwa [e] at this

theorem useMany_fifo_any (cap : Nat) (hd : cap ∣ 2 ^ 64) (hc : cap < 2 ^ 64) :
    ∀ (ops : List QOp) (q : Queue) (l : List Nat), QAny cap q l → q.terminated = false →
    ∃ q', q.useMany cap ops = some ((fifoRun cap l ops).1, q') ∧ QAny cap q' (fifoRun cap l ops).2 := by
  intro ops
  induction ops with
  | nil => intro q l h _; exact ⟨q, rfl, h⟩
  | cons op ops ih =>
    intro q l h hterm
    cases op with
    | put t =>
      have hl : QAny cap (q.tryLock (.caller 0)) l := h.congr rfl rfl rfl
      by_cases hf : l.length < cap
      · have hnf : (q.tryLock (.caller 0)).full cap = false := by
          rw [← Bool.not_eq_true, hl.full_iff hc]; omega
        obtain ⟨a1, a2⟩ := hl.acquire hd hf t
        obtain ⟨q', e, r⟩ := ih { ((q.tryLock (.caller 0)).acquire cap t).1 with holder := none } _
          (a2.congr rfl rfl rfl) hterm
        refine ⟨q', ?_, ?_⟩
        · simp only [Queue.useMany, Queue.useOnce, hnf, a1, Bool.false_eq_true, if_false, e, fifoRun,
            fifoStep, if_pos hf]
        · simp only [fifoRun, fifoStep, if_pos hf]
          exact r
      · have hnf : (q.tryLock (.caller 0)).full cap = true := by
          rw [hl.full_iff hc]; have := hl.le_cap; omega
        obtain ⟨q', e, r⟩ := ih { (q.tryLock (.caller 0)) with holder := none } l (h.congr rfl rfl rfl) hterm
        refine ⟨q', ?_, ?_⟩
        · simp only [Queue.useMany, Queue.useOnce, hnf, if_true, e, fifoRun, fifoStep, if_neg hf]
        · simp only [fifoRun, fifoStep, if_neg hf]
          exact r
    | take =>
      cases l with
      | nil =>
        have he : q.empty = true := (h.empty_iff hc).mpr rfl
        obtain ⟨q', e, r⟩ := ih q [] h hterm
        exact ⟨q', by simp only [Queue.useMany, Queue.useOnce, he, Bool.true_or, if_true, e, fifoRun, fifoStep], r⟩
      | cons t l =>
        have he : q.empty = false := by
          rw [← Bool.not_eq_true, h.empty_iff hc]; simp
        obtain ⟨q1, e1, a1, ht⟩ := h.popFront hd
        obtain ⟨q', e, r⟩ := ih q1 l a1 (ht.trans hterm)
        exact ⟨q', by simp only [Queue.useMany, Queue.useOnce, he, hterm, Bool.or_self, Bool.false_eq_true,
          if_false, e1, e, fifoRun, fifoStep], r⟩

theorem QAny.initial (cap : Nat) : QAny cap {} [] :=
  ⟨0, rfl, rfl, by simp, by simp, fun _ _ _ => rfl⟩

/-- `n` times put one task and take it out again -/
def pairs : Nat → List QOp
  | 0 => []
  | n + 1 => .put 0 :: .take :: pairs n

/-- an empty queue whose counters stand at `f` -/
def emptyAt (f : Nat) : Queue := { front := BitVec.ofNat 64 f, back := BitVec.ofNat 64 f }

theorem useMany_pairs (ops : List QOp) : ∀ (n f : Nat) (q : Queue), q.slots = (fun _ => none) →
    q.front = BitVec.ofNat 64 f → q.back = BitVec.ofNat 64 f → q.terminated = false →
    ∃ (q' : Queue) (rs : List QRes), q'.slots = (fun _ => none) ∧ q'.front = BitVec.ofNat 64 (f + n) ∧ q'.back = BitVec.ofNat 64 (f + n) ∧
      q'.terminated = false ∧
      q.useMany 3 (pairs n ++ ops) = (q'.useMany 3 ops).map fun r => (rs ++ r.1, r.2) := by
  intro n
  induction n with
  | zero =>
    intro f q h1 h2 h3 h4
    refine ⟨q, [], h1, h2, h3, h4, ?_⟩
    simp [pairs]
  | succ n ih =>
    intro f q h1 h2 h3 h4
    have hsz : q.front = q.back := by rw [h2, h3]
    obtain ⟨q1, e1, a1, a2, a3, a4⟩ : ∃ q1, q.useOnce 3 (.put 0) = some (.stored, q1) ∧
        q1.slots = upd (fun _ => none) (q.back.toNat % 3) (some 0) ∧ q1.front = q.front ∧
        q1.back = q.back + 1#64 ∧ q1.terminated = false := by
      refine ⟨{ ((q.tryLock (.caller 0)).acquire 3 0).1 with holder := none }, ?_, ?_, rfl, rfl, h4⟩
      · simp [Queue.useOnce, Queue.tryLock, Queue.full, Queue.size, Queue.acquire, hsz, h1]
      · simp [Queue.tryLock, Queue.acquire, h1]
    obtain ⟨q2, e2, c1, c2, c3, c4⟩ : ∃ q2, q1.useOnce 3 .take = some (.got 0, q2) ∧
        q2.slots = (fun _ => none) ∧ q2.front = q.front + 1#64 ∧
        q2.back = q.back + 1#64 ∧ q2.terminated = false := by
      refine ⟨{ q1 with slots := upd q1.slots (q.back.toNat % 3) none, front := q1.front + 1#64 },
        ?_, ?_, ?_, a3, a4⟩
      · have hne : q1.empty = false := by
          rw [Queue.empty, a2, a3, hsz, beq_eq_false_iff_ne]
          intro e
          have := congrArg BitVec.toNat e
          simp only [BitVec.toNat_add, BitVec.toNat_ofNat] at this
          have := q.back.isLt
          omega
        simp [Queue.useOnce, hne, a4, Queue.popFront, a1, a2, hsz]
      · funext i
        simp only [a1, upd]
        split <;> rfl
      · simp only [a2]
    have hs : ∀ x : BitVec 64, x = BitVec.ofNat 64 f → x + 1#64 = BitVec.ofNat 64 (f + 1) := by
      intro x hx; subst hx; apply BitVec.eq_of_toNat_eq; simp [BitVec.toNat_add]
    obtain ⟨q', rs, d1, d2, d3, d4, d5⟩ := ih (f + 1) q2 c1 (c2.trans (hs _ h2)) (c3.trans (hs _ h3)) c4
    refine ⟨q', .stored :: .got 0 :: rs, d1, ?_, ?_, d4, ?_⟩
    · rw [d2]; congr 1; omega
    · rw [d3]; congr 1; omega
    · simp only [pairs, List.cons_append, Queue.useMany, e1, e2, d5]
      cases q'.useMany 3 ops <;> simp

/-- capacity 3: once the counters have gone all the way round, a second task is constructed over a live one -/
theorem useMany_clash (n : Nat) (hn : n = 2 ^ 64 - 1) :
    ({} : Queue).useMany 3 (pairs n ++ [.put 1, .put 2]) = none := by
  obtain ⟨q', rs, d1, d2, d3, d4, d5⟩ := useMany_pairs [.put 1, .put 2] n 0 {} rfl rfl rfl rfl
  rw [d5]
  have hv : BitVec.ofNat 64 (0 + n) = 0xFFFFFFFFFFFFFFFF#64 := by
    apply BitVec.eq_of_toNat_eq; rw [BitVec.toNat_ofNat, BitVec.toNat_ofNat, hn]
  have hf : q'.front = 0xFFFFFFFFFFFFFFFF#64 := d2.trans hv
  have hb : q'.back = 0xFFFFFFFFFFFFFFFF#64 := d3.trans hv
  have e0 : q'.back.toNat % 3 = 0 := by rw [hb]; rfl
  have e1 : (q'.back + 1#64).toNat % 3 = 0 := by rw [hb]; rfl
  have e2 : (q'.back - q'.front).toNat = 0 := by rw [hb, hf]; rfl
  have e3 : (q'.back + 1#64 - q'.front).toNat = 1 := by rw [hb, hf]; rfl
  clear hv hf hb d2 d3 d5
  simp [Queue.useMany, Queue.useOnce, Queue.tryLock, Queue.full, Queue.size, Queue.acquire, d1, e0, e1, e2, e3, upd,
    -BitVec.toNat_add, -BitVec.toNat_sub]

/-- the buffer specification on the same history -/
theorem fifoRun_pairs (cap : Nat) (hc : 2 ≤ cap) : ∀ n, ∃ rs,
    (fifoRun cap [] (pairs n ++ [.put 1, .put 2])) = (rs ++ [.stored, .stored], [1, 2]) := by
  intro n
  induction n with
  | zero =>
    refine ⟨[], ?_⟩
    have h0 : 0 < cap := by omega
    have h1 : 1 < cap := by omega
    simp [pairs, fifoRun, fifoStep, h0, h1]
  | succ n ih =>
    obtain ⟨rs, h⟩ := ih
    have h0 : 0 < cap := by omega
    refine ⟨.stored :: .got 0 :: rs, ?_⟩
    simp [pairs, fifoRun, fifoStep, h0, h]

end Verif.Proofs.Pool
