import Verif.Model.ThreadPool
/-! The ring buffer of a worker queue represents a list. -/
namespace Verif.Proofs.Pool
open Verif.Spec.Pool Verif.Model.Pool

@[simp] theorem upd_same {α} (f : Nat → α) (i : Nat) (v : α) : upd f i v i = v := by simp [upd]
theorem upd_ne {α} (f : Nat → α) {i j : Nat} (v : α) (h : j ≠ i) : upd f i v j = f j := by simp [upd, h]
theorem upd_apply {α} (f : Nat → α) (i j : Nat) (v : α) : upd f i v j = if j = i then v else f j := rfl

/-- `q` stores the list `l`, after at most `bound` pushes -/
def QAbs (cap bound : Nat) (q : Queue) (l : List Nat) : Prop :=
  ∃ f : Nat, f + l.length ≤ bound ∧ q.front = BitVec.ofNat 64 f ∧ q.back = BitVec.ofNat 64 (f + l.length) ∧
    l.length ≤ cap ∧ (∀ j (h : j < l.length), q.slots ((f + j) % cap) = some l[j]) ∧
    (∀ i < cap, (∀ j < l.length, i ≠ (f + j) % cap) → q.slots i = none)

theorem mod_ne {f j k cap : Nat} (h : j < k) (h2 : k - j < cap) : (f + j) % cap ≠ (f + k) % cap := by
  intro e
  have := Nat.sub_mod_eq_zero_of_mod_eq e.symm
  have h3 : f + k - (f + j) = k - j := by omega
  rw [h3, Nat.mod_eq_of_lt h2] at this
  omega

theorem QAbs.mono {cap b b' q l} (h : QAbs cap b q l) (hb : b ≤ b') : QAbs cap b' q l := by
  obtain ⟨f, h1, h⟩ := h
  exact ⟨f, by omega, h⟩

theorem QAbs.congr {cap b q q' l} (h : QAbs cap b q l) (h1 : q'.slots = q.slots) (h2 : q'.front = q.front)
    (h3 : q'.back = q.back) : QAbs cap b q' l := by
  unfold QAbs at *
  rw [h1, h2, h3]; exact h

theorem QAbs.size {cap b q l} (h : QAbs cap b q l) (hb : b < 2 ^ 64) : q.size = BitVec.ofNat 64 l.length := by
  obtain ⟨f, h1, h2, h3, -⟩ := h
  unfold Queue.size
  rw [h2, h3]
  apply BitVec.eq_of_toNat_eq
  simp only [BitVec.toNat_sub, BitVec.toNat_ofNat]
  omega

theorem QAbs.size_toNat {cap b q l} (h : QAbs cap b q l) (hb : b < 2 ^ 64) : q.size.toNat = l.length := by
  rw [h.size hb]
  obtain ⟨f, h1, -⟩ := h
  simp only [BitVec.toNat_ofNat]
  omega

theorem QAbs.le_cap {cap b q l} (h : QAbs cap b q l) : l.length ≤ cap := by
  obtain ⟨f, -, -, -, h, -⟩ := h; exact h

theorem QAbs.empty_iff {cap b q l} (h : QAbs cap b q l) (hb : b < 2 ^ 64) : q.empty = true ↔ l = [] := by
  obtain ⟨f, h1, h2, h3, -⟩ := h
  unfold Queue.empty
  rw [h2, h3, beq_iff_eq]
  constructor
  · intro e
    have := congrArg BitVec.toNat e
    simp only [BitVec.toNat_ofNat] at this
    rw [Nat.mod_eq_of_lt (by omega), Nat.mod_eq_of_lt (by omega)] at this
    exact List.length_eq_zero_iff.mp (by omega)
  · rintro rfl; simp

theorem QAbs.available {cap b q l} (h : QAbs cap b q l) (hb : b < 2 ^ 64) (hc : cap < 2 ^ 64) :
    (q.available cap).toNat = cap - l.length := by
  have h1 := h.size_toNat hb
  have h2 := h.le_cap
  unfold Queue.available
  rw [BitVec.toNat_sub, h1, BitVec.toNat_ofNat]
  omega

theorem QAbs.full_iff {cap b q l} (h : QAbs cap b q l) (hb : b < 2 ^ 64) :
    q.full cap = true ↔ l.length = cap := by
  have h1 := h.size_toNat hb
  have h2 := h.le_cap
  unfold Queue.full
  rw [h1, decide_eq_true_iff]; omega

/-- the tests `!full()` and `available() >= 1` agree -/
theorem not_full_iff_available {cap b q l} (h : QAbs cap b q l) (hb : b < 2 ^ 64) (hc : cap < 2 ^ 64) :
    q.full cap = false ↔ 1 ≤ (q.available cap).toNat := by
  rw [h.available hb hc, ← Bool.not_eq_true, h.full_iff hb]
  have := h.le_cap
  omega

theorem QAbs.acquire {cap b q l} (h : QAbs cap b q l) (hb : b < 2 ^ 64) (hl : l.length < cap) (t : Nat) :
    (q.acquire cap t).2 = false ∧ QAbs cap (b + 1) (q.acquire cap t).1 (l ++ [t]) := by
  obtain ⟨f, h1, h2, h3, h4, h5, h6⟩ := h
  have hback : q.back.toNat = f + l.length := by
    rw [h3, BitVec.toNat_ofNat, Nat.mod_eq_of_lt (by omega)]
  have hfree : q.slots ((f + l.length) % cap) = none := by
    apply h6 _ (Nat.mod_lt _ (by omega))
    intro j hj e
    exact mod_ne (f := f) hj (by omega) e.symm
  refine ⟨by simp [Queue.acquire, hback, hfree], f, ?_, h2, ?_, ?_, ?_, ?_⟩
  · simp; omega
  · simp only [Queue.acquire, h3, List.length_append, List.length_singleton]
    rw [← Nat.add_assoc]
    apply BitVec.eq_of_toNat_eq
    simp [BitVec.toNat_add]
  · simp; omega
  · intro j hj
    simp only [Queue.acquire, hback]
    rw [List.length_append, List.length_singleton] at hj
    by_cases hjl : j = l.length
    · subst hjl; simp
    · rw [upd_ne _ _ (mod_ne (f := f) (by omega) (by omega)), h5 j (by omega),
        List.getElem_append_left (by omega)]
  · intro i hi hne
    simp only [Queue.acquire, hback]
    rw [List.length_append, List.length_singleton] at hne
    rw [upd_ne _ _ (hne l.length (by omega))]
    exact h6 i hi (fun j hj => hne j (by omega))

theorem QAbs.popFront {cap b q t l} (h : QAbs cap b q (t :: l)) (hb : b < 2 ^ 64) :
    ∃ q', q.popFront cap = some (t, q') ∧ QAbs cap b q' l ∧ q'.holder = q.holder ∧
      q'.enqueues = q.enqueues ∧ q'.terminated = q.terminated := by
  obtain ⟨f, h1, h2, h3, h4, h5, h6⟩ := h
  rw [List.length_cons] at h1 h3 h4
  have hf : (q.front + 0#64).toNat = f := by
    rw [BitVec.add_zero, h2, BitVec.toNat_ofNat, Nat.mod_eq_of_lt (by omega)]
  have h0 := h5 0 (by simp)
  simp only [Nat.add_zero, List.getElem_cons_zero] at h0
  refine ⟨{ q with slots := upd q.slots (f % cap) none, front := q.front + 1#64 },
    by simp only [Queue.popFront, hf, h0], ⟨f + 1, by omega, ?_, ?_, by omega, ?_, ?_⟩, rfl, rfl, rfl⟩
  · simp only [h2]
    apply BitVec.eq_of_toNat_eq
    simp [BitVec.toNat_add]
  · simp only [h3]; congr 1; omega
  · intro j hj
    have hne := mod_ne (f := f) (j := 0) (k := j + 1) (cap := cap) (by omega) (by omega)
    simp only [Nat.add_zero] at hne
    have e : f + 1 + j = f + (j + 1) := by omega
    rw [e]
    show upd q.slots (f % cap) none _ = _
    rw [upd_ne _ _ hne.symm, h5 (j + 1) (by simp; omega), List.getElem_cons_succ]
  · intro i hi hne
    show upd q.slots (f % cap) none i = none
    by_cases hif : i = f % cap
    · subst hif; simp
    · rw [upd_ne _ _ hif]
      apply h6 i hi
      intro j hj
      cases j with
      | zero => simpa using hif
      | succ j =>
        rw [List.length_cons] at hj
        have := hne j (by omega)
        have e : f + 1 + j = f + (j + 1) := by omega
        rwa [e] at this

theorem QAbs.initial (cap : Nat) : QAbs cap 0 {} [] :=
  ⟨0, by simp, rfl, rfl, by simp, by simp, fun _ _ _ => rfl⟩

/-- sequential use of a queue is a bounded FIFO, as long as fewer than 2^64 tasks are put in -/
theorem useMany_fifo (cap : Nat) : ∀ (ops : List QOp) (q : Queue) (l : List Nat) (b : Nat),
    QAbs cap b q l → q.terminated = false → b + puts ops < 2 ^ 64 →
    ∃ q', q.useMany cap ops = some ((fifoRun cap l ops).1, q') ∧
      QAbs cap (b + puts ops) q' (fifoRun cap l ops).2 := by
  intro ops
  induction ops with
  | nil => intro q l b h _ _; exact ⟨q, rfl, h⟩
  | cons op ops ih =>
    intro q l b h hterm hb
    cases op with
    | put t =>
      simp only [puts] at hb ⊢
      have hl : QAbs cap b (q.tryLock (.caller 0)) l := h.congr rfl rfl rfl
      by_cases hf : l.length < cap
      · have hnf : (q.tryLock (.caller 0)).full cap = false := by
          rw [← Bool.not_eq_true, hl.full_iff (by omega)]; omega
        obtain ⟨a1, a2⟩ := hl.acquire (by omega) hf t
        obtain ⟨q', e, r⟩ := ih { ((q.tryLock (.caller 0)).acquire cap t).1 with holder := none } _ (b + 1)
          (a2.congr rfl rfl rfl) hterm (by omega)
        refine ⟨q', ?_, ?_⟩
        · simp only [Queue.useMany, Queue.useOnce, hnf, a1, Bool.false_eq_true, if_false, e, fifoRun,
            fifoStep, if_pos hf]
        · simp only [fifoRun, fifoStep, if_pos hf]
          exact r.mono (by omega)
      · have hnf : (q.tryLock (.caller 0)).full cap = true := by
          rw [hl.full_iff (by omega)]; have := hl.le_cap; omega
        obtain ⟨q', e, r⟩ := ih { (q.tryLock (.caller 0)) with holder := none } l b (h.congr rfl rfl rfl)
          hterm (by omega)
        refine ⟨q', ?_, ?_⟩
        · simp only [Queue.useMany, Queue.useOnce, hnf, if_true, e, fifoRun, fifoStep, if_neg hf]
        · simp only [fifoRun, fifoStep, if_neg hf]
          exact r.mono (by omega)
    | take =>
      simp only [puts] at hb ⊢
      cases l with
      | nil =>
        have he : q.empty = true := (h.empty_iff (by omega)).mpr rfl
        obtain ⟨q', e, r⟩ := ih q [] b h hterm (by omega)
        exact ⟨q', by simp only [Queue.useMany, Queue.useOnce, he, Bool.true_or, if_true, e, fifoRun, fifoStep],
          r.mono (by omega)⟩
      | cons t l =>
        have he : q.empty = false := by
          rw [← Bool.not_eq_true, h.empty_iff (by omega)]; simp
        obtain ⟨q1, e1, a1, -, -, ht⟩ := h.popFront (by omega)
        obtain ⟨q', e, r⟩ := ih q1 l b a1 (ht.trans hterm) (by omega)
        exact ⟨q', by simp only [Queue.useMany, Queue.useOnce, he, hterm, Bool.or_self, Bool.false_eq_true,
          if_false, e1, e, fifoRun, fifoStep], r.mono (by omega)⟩

end Verif.Proofs.Pool
