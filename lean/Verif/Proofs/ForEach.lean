import Verif.Model.ForEach
/-! Lemmas about the splitting of index and iterator ranges into batches. -/
namespace Verif.Proofs.ForEach
open Verif.Spec.ForEach Verif.Model.ForEach

/-! ### The generator -/

/-- size of batch `i` -/
def bsize (J W i : Nat) : Nat := J / W + if i < J % W then 1 else 0
/-- number of indices before batch `i` -/
def pre (J W i : Nat) : Nat := i * (J / W) + min i (J % W)

theorem pre_succ (J W i : Nat) : pre J W (i + 1) = pre J W i + bsize J W i := by
  unfold pre bsize
  rw [Nat.succ_mul]
  split <;> omega

theorem pre_mono (J W : Nat) {i k : Nat} (h : i ≤ k) : pre J W i ≤ pre J W k := by
  induction k with
  | zero => have : i = 0 := by omega
            subst this; exact Nat.le_refl _
  | succ k ih =>
    by_cases hk : i = k + 1
    · subst hk; exact Nat.le_refl _
    · rw [pre_succ]; have := ih (by omega); omega

theorem pre_zero (J W : Nat) : pre J W 0 = 0 := by simp [pre]

/-- number of batches -/
def count (J W : Nat) : Nat := min J W

theorem pre_count {J W : Nat} (hW : 0 < W) : pre J W (count J W) = J := by
  unfold pre count
  have h1 := Nat.div_add_mod J W
  have h2 := Nat.mod_lt J hW
  by_cases h : J < W
  · have e1 : J / W = 0 := Nat.div_eq_of_lt h
    have e2 : J % W = J := Nat.mod_eq_of_lt h
    rw [e1, e2]; omega
  · have e : min J W = W := by omega
    rw [e, show min W (J % W) = J % W by omega]
    exact h1

theorem bsize_pos {J W i : Nat} (hW : 0 < W) (hi : i < count J W) : 0 < bsize J W i := by
  unfold bsize count at *
  by_cases h : J < W
  · rw [Nat.mod_eq_of_lt h]; rw [if_pos (by omega)]; exact Nat.succ_pos _
  · have := Nat.div_pos (by omega : W ≤ J) hW; omega

theorem pre_lt {J W i : Nat} (hW : 0 < W) (hi : i < count J W) : pre J W i < J := by
  have h1 := pre_succ J W i
  have h2 := bsize_pos hW hi
  have h3 := pre_mono J W (i := i + 1) (k := count J W) (by omega)
  rw [pre_count hW] at h3
  omega

/-- the generator after `i` calls -/
structure GInv (J W i : Nat) (g : Gen) : Prop where
  rem : g.remaining.toNat = J - pre J W i
  con : g.constant.toNat = J / W
  ovf : g.overflow.toNat = J % W - i

theorem gen_next {J W i : Nat} {g : Gen} (hJ : J < 2 ^ 64) (hW : 0 < W) (h : GInv J W i g) (hi : i < count J W) :
    g.next.1.toNat = bsize J W i ∧ GInv J W (i + 1) g.next.2 := by
  obtain ⟨h1, h2, h3⟩ := h
  have hlt := pre_lt hW hi
  have hs := pre_succ J W i
  have hle := pre_mono J W (i := i + 1) (k := count J W) (by omega)
  rw [pre_count hW] at hle
  have hr : g.remaining ≠ 0#64 := by
    intro e; rw [e] at h1; simp only [BitVec.toNat_ofNat] at h1; omega
  have hb : bsize J W i ≤ J := by omega
  have hov : (g.overflow ≠ 0#64) ↔ i < J % W := by
    rw [Ne, ← BitVec.toNat_inj, h3]; simp only [BitVec.toNat_ofNat]; omega
  have hsz : g.next.1.toNat = bsize J W i := by
    unfold Gen.next
    rw [if_neg hr]
    simp only [hov, bsize]
    unfold bsize at hb
    split
    · rename_i hc; rw [if_pos hc] at hb
      rw [BitVec.toNat_add, h2]; simp only [BitVec.toNat_ofNat]; omega
    · rw [h2]; omega
  refine ⟨hsz, ?_, ?_, ?_⟩
  · have e : g.next.2.remaining = g.remaining - g.next.1 := by unfold Gen.next; rw [if_neg hr]
    rw [e, BitVec.toNat_sub, hsz, h1]
    omega
  · have e : g.next.2.constant = g.constant := by unfold Gen.next; rw [if_neg hr]
    rw [e, h2]
  · unfold Gen.next
    rw [if_neg hr]
    simp only [hov]
    split
    · rw [BitVec.toNat_sub, h3]; simp only [BitVec.toNat_ofNat]; 
      have := Nat.mod_lt J hW
      have : J % W ≤ J := Nat.mod_le _ _
      omega
    · rw [h3]; omega

theorem gen_last {J W : Nat} {g : Gen} (hW : 0 < W) (h : GInv J W (count J W) g) : g.next.1 = 0#64 := by
  have h1 := h.rem
  rw [pre_count hW, Nat.sub_self] at h1
  have : g.remaining = 0#64 := BitVec.eq_of_toNat_eq (by rw [h1]; rfl)
  unfold Gen.next
  rw [if_pos this]

theorem gen_init {jobs workers : BitVec 64} (hw : workers ≠ 0#64) :
    ∃ g, Gen.init jobs workers = some g ∧ GInv jobs.toNat workers.toNat 0 g := by
  refine ⟨⟨jobs, jobs / workers, jobs % workers⟩, by simp [Gen.init, hw], ?_, ?_, ?_⟩
  · rw [pre_zero]; rfl
  · exact BitVec.toNat_udiv
  · simp [BitVec.toNat_umod]

/-! ### Values -/

theorem val_offAdd {w : Nat} (hw : w = 32 ∨ w = 64) (signed : Bool) (b e : BitVec w) (size : BitVec 64)
    (h : val signed b + size.toNat ≤ val signed e) : val signed (offAdd signed b size) = val signed b + size.toNat := by
  have hb := b.isLt
  have he := e.isLt
  have hs := size.isLt
  unfold val offAdd at *
  rcases hw with rfl | rfl <;> cases signed <;> simp only [Bool.false_eq_true, if_false, if_true] at *
  · simp only [BitVec.toNat_setWidth, BitVec.toNat_add]; omega
  · simp only [BitVec.toInt_eq_toNat_cond, BitVec.toNat_setWidth, BitVec.toNat_add, BitVec.toNat_signExtend,
      BitVec.msb_eq_decide, decide_eq_true_eq] at *
    split at h <;> split at h <;> split <;> split <;> (try split) <;> omega
  · simp only [BitVec.toNat_setWidth, BitVec.toNat_add]; omega
  · simp only [BitVec.toInt_eq_toNat_cond, BitVec.toNat_setWidth, BitVec.toNat_add, BitVec.toNat_signExtend,
      BitVec.msb_eq_decide, decide_eq_true_eq] at *
    split at h <;> split at h <;> split <;> split <;> (try split) <;> omega

theorem val_succ {w : Nat} (hw : w = 32 ∨ w = 64) (signed : Bool) (b e : BitVec w) (h : val signed b < val signed e) :
    val signed (b + 1#w) = val signed b + 1 := by
  have hb := b.isLt
  have he := e.isLt
  unfold val at *
  rcases hw with rfl | rfl <;> cases signed <;> simp only [Bool.false_eq_true, if_false, if_true] at *
  · simp only [BitVec.toNat_add, BitVec.toNat_ofNat]; omega
  · simp only [BitVec.toInt_eq_toNat_cond, BitVec.toNat_add, BitVec.toNat_ofNat] at *
    split at h <;> split at h <;> split <;> omega
  · simp only [BitVec.toNat_add, BitVec.toNat_ofNat]; omega
  · simp only [BitVec.toInt_eq_toNat_cond, BitVec.toNat_add, BitVec.toNat_ofNat] at *
    split at h <;> split at h <;> split <;> omega

theorem less_iff {w : Nat} (signed : Bool) (a b : BitVec w) : less signed a b = true ↔ val signed a < val signed b := by
  unfold less val
  cases signed
  · simp [BitVec.ult]
  · simp [BitVec.slt]

theorem greater_iff {w : Nat} (signed : Bool) (a b : BitVec w) :
    greater signed a b = true ↔ val signed b < val signed a := by
  have : greater signed a b = less signed b a := by cases signed <;> rfl
  rw [this, less_iff]

theorem val_inj {w : Nat} (signed : Bool) {a b : BitVec w} (h : val signed a = val signed b) : a = b := by
  unfold val at h
  cases signed
  · exact BitVec.eq_of_toNat_eq (by simp only [Bool.false_eq_true, if_false] at h; omega)
  · exact BitVec.eq_of_toInt_eq (by simpa using h)

theorem val_range {w : Nat} (signed : Bool) (a b : BitVec w) : val signed a - val signed b < 2 ^ w := by
  have ha := a.isLt
  have hb := b.isLt
  unfold val
  have hc : ((2 ^ w : Nat) : Int) = (2 : Int) ^ w := by simp
  cases signed
  · simp only [Bool.false_eq_true, if_false]; omega
  · simp only [if_true]
    have h1 := BitVec.le_two_mul_toInt (x := b)
    have h2 := BitVec.two_mul_toInt_lt (x := a)
    have h3 := BitVec.two_mul_toInt_lt (x := b)
    have h4 := BitVec.le_two_mul_toInt (x := a)
    omega

/-! ### One batch -/

theorem upFrom_cons (lo : Int) (n : Nat) : upFrom lo (n + 1) = lo :: upFrom (lo + 1) n := by
  unfold upFrom
  rw [List.range_succ_eq_map]
  simp only [List.map_cons, List.map_map]
  congr 1
  · simp
  · apply List.map_congr_left
    intro i _
    simp only [Function.comp_apply, Nat.succ_eq_add_one]
    omega

theorem upFrom_append (lo : Int) (n m : Nat) : upFrom lo (n + m) = upFrom lo n ++ upFrom (lo + n) m := by
  induction n generalizing lo with
  | zero => simp [upFrom]
  | succ n ih =>
    rw [show n + 1 + m = (n + m) + 1 by omega, upFrom_cons, upFrom_cons, ih]
    simp only [List.cons_append]
    congr 3
    omega

theorem batchLoop_val {w : Nat} (hw : w = 32 ∨ w = 64) (signed : Bool) (e : BitVec w) :
    ∀ (n : Nat) (b : BitVec w), val signed b ≤ val signed e → val signed e - val signed b ≤ n →
      (batchLoop signed n b e).map (val signed) = upFrom (val signed b) (val signed e - val signed b).toNat := by
  intro n
  induction n with
  | zero =>
    intro b h1 h2
    have : (val signed e - val signed b).toNat = 0 := by omega
    rw [this]; rfl
  | succ n ih =>
    intro b h1 h2
    rw [batchLoop]
    by_cases hlt : val signed b < val signed e
    · rw [if_pos ((less_iff signed b e).mpr hlt)]
      have hs := val_succ hw signed b e hlt
      rw [List.map_cons, ih (b + 1#w) (by omega) (by omega), hs]
      obtain ⟨m, hm⟩ : ∃ m, (val signed e - val signed b).toNat = m + 1 :=
        ⟨(val signed e - val signed b).toNat - 1, by omega⟩
      rw [hm, upFrom_cons]
      congr 2
      omega
    · have hn : less signed b e ≠ true := fun h => hlt ((less_iff signed b e).mp h)
      rw [if_neg hn]
      have : (val signed e - val signed b).toNat = 0 := by omega
      rw [this]; rfl

theorem calls_val {w : Nat} (hw : w = 32 ∨ w = 64) (signed : Bool) (b : Batch (BitVec w))
    (h : val signed b.start ≤ val signed b.stop) :
    (b.calls signed).map (val signed) = upFrom (val signed b.start) (val signed b.stop - val signed b.start).toNat := by
  apply batchLoop_val hw signed b.stop _ _ h
  have := val_range signed b.stop b.start
  have hc : ((2 ^ w : Nat) : Int) = (2 : Int) ^ w := by simp
  omega

/-! ### All batches -/

/-- what is known about the batches from number `i` on -/
structure Good {w : Nat} (signed : Bool) (a : Int) (J W i : Nat) (l : List (Batch (BitVec w))) : Prop where
  len : l.length = count J W - i
  nth : ∀ k (h : k < l.length), (l[k]).index = i + k ∧ val signed l[k].start = a + pre J W (i + k) ∧
    val signed l[k].stop = a + pre J W (i + k + 1)

theorem dispatch_good {w : Nat} (hw : w = 32 ∨ w = 64) (signed : Bool) (a : Int) (J W : Nat) (hJ : J < 2 ^ 64)
    (hW : 0 < W) (top : BitVec w) (htop : val signed top = a + J) :
    ∀ (m i fuel : Nat) (g : Gen) (b : BitVec w) (size : BitVec 64), i < count J W → m = count J W - i → m ≤ fuel →
      GInv J W (i + 1) g → size.toNat = bsize J W i → val signed b = a + pre J W i →
      ∃ l, dispatch signed fuel g b size i = some l ∧ Good signed a J W i l ∧
        (l.flatMap fun x => (x.calls signed).map (val signed)) = upFrom (a + pre J W i) (J - pre J W i) := by
  intro m
  induction m with
  | zero => intro i fuel g b size hi hm; omega
  | succ m ih =>
    intro i fuel g b size hi hm hf hg hs hb
    obtain ⟨fuel, rfl⟩ : ∃ f, fuel = f + 1 := ⟨fuel - 1, by omega⟩
    have hps := pre_succ J W i
    have hle := pre_mono J W (i := i + 1) (k := count J W) (by omega)
    rw [pre_count hW] at hle
    have he : val signed (offAdd signed b size) = a + pre J W (i + 1) := by
      rw [val_offAdd hw signed b top size (by rw [hb, htop, hs]; omega), hb, hs]; omega
    have hcalls : ((⟨b, offAdd signed b size, i⟩ : Batch (BitVec w)).calls signed).map (val signed) =
        upFrom (a + pre J W i) (bsize J W i) := by
      rw [calls_val hw signed _ (by show val signed b ≤ val signed (offAdd signed b size); rw [he, hb]; omega)]
      show upFrom (val signed b) (val signed (offAdd signed b size) - val signed b).toNat = _
      rw [he, hb]; congr 1; omega
    rw [dispatch]
    by_cases hlast : i + 1 = count J W
    · have hz : g.next.1 = 0#64 := gen_last hW (by rw [← hlast]; exact hg)
      simp only [hz, ne_eq, not_true_eq_false, if_false]
      refine ⟨_, rfl, ⟨by simp; omega, ?_⟩, ?_⟩
      · intro k hk
        have hk0 : k = 0 := by simp at hk; omega
        subst hk0
        simp only [List.getElem_cons_zero, Nat.add_zero]
        exact ⟨trivial, hb, he⟩
      · simp only [List.flatMap_cons, List.flatMap_nil, List.append_nil]
        rw [hcalls]
        congr 1
        have : pre J W (i + 1) = J := by rw [hlast]; exact pre_count hW
        omega
    · obtain ⟨hn1, hn2⟩ := gen_next hJ hW hg (by omega)
      have hpos := bsize_pos (J := J) (W := W) (i := i + 1) hW (by omega)
      have hnz : g.next.1 ≠ 0#64 := by
        intro e; rw [e] at hn1; simp only [BitVec.toNat_ofNat] at hn1; omega
      obtain ⟨l, hl, hgood, hflat⟩ := ih (i + 1) fuel g.next.2 (offAdd signed b size) g.next.1 (by omega) (by omega)
        (by omega) hn2 hn1 he
      simp only [ne_eq, hnz, not_false_eq_true, if_true, hl]
      refine ⟨_, rfl, ⟨?_, ?_⟩, ?_⟩
      · have := hgood.len; simp only [List.length_cons]; omega
      · intro k hk
        cases k with
        | zero =>
          simp only [List.getElem_cons_zero, Nat.add_zero]
          exact ⟨trivial, hb, he⟩
        | succ k =>
          simp only [List.getElem_cons_succ]
          have := hgood.nth k (by simpa using hk)
          rw [show i + (k + 1) = i + 1 + k by omega]
          exact this
      · rw [List.flatMap_cons, hcalls, hflat]
        have e : J - pre J W i = bsize J W i + (J - pre J W (i + 1)) := by omega
        rw [e, upFrom_append]
        congr 2
        omega

/-- the range after the exchange of its ends -/
theorem orient_spec {w : Nat} (hw : w = 32 ∨ w = 64) (signed : Bool) (start stop : BitVec w)
    (hmax : val signed stop < val signed start → ∃ top : BitVec w, val signed start < val signed top) :
    ∃ a b, orient signed start stop = some (a, b) ∧ val signed a ≤ val signed b ∧
      indices (val signed start) (val signed stop) = upFrom (val signed a) (val signed b - val signed a).toNat ∧
      val signed b - val signed a = max (val signed stop - val signed start) (val signed start - val signed stop) := by
  by_cases hg : val signed stop < val signed start
  · obtain ⟨top, htop⟩ := hmax hg
    have h1 := val_succ hw signed start top htop
    have h2 := val_succ hw signed stop start hg
    refine ⟨stop + 1#w, start + 1#w, ?_, by omega, ?_, by omega⟩
    · unfold orient
      rw [if_pos ((greater_iff signed start stop).mpr hg), if_neg]
      intro he
      rw [Bool.and_eq_true, beq_iff_eq] at he
      obtain ⟨hs, he⟩ := he
      subst hs
      unfold val at htop
      simp only [if_true] at htop
      rw [he] at htop
      have hlt := BitVec.two_mul_toInt_lt (x := top)
      rcases hw with rfl | rfl <;> simp [BitVec.toInt_intMax] at htop hlt <;> omega
    · rw [indices, if_neg (by omega), h1, h2]
      congr 1
      omega
  · refine ⟨start, stop, ?_, by omega, ?_, by omega⟩
    · unfold orient
      rw [if_neg (fun h => hg ((greater_iff signed start stop).mp h))]
    · rw [indices, if_pos (by omega)]

theorem jobCount_spec {w : Nat} (hw : w = 32 ∨ w = 64) (signed : Bool) (a b : BitVec w)
    (hab : val signed a ≤ val signed b) (hd : signed = true → val signed b - val signed a < 2 ^ (w - 1)) :
    ∃ j, jobCount signed a b = some j ∧ (j.toNat : Int) = val signed b - val signed a := by
  have ha := a.isLt
  have hb := b.isLt
  unfold val at *
  cases signed
  · simp only [Bool.false_eq_true, if_false] at *
    refine ⟨_, rfl, ?_⟩
    rcases hw with rfl | rfl <;> simp only [BitVec.toNat_setWidth, BitVec.toNat_sub] <;> omega
  · simp only [if_true] at *
    have hd := hd trivial
    have hno : b.ssubOverflow a = false := by
      unfold BitVec.ssubOverflow
      have h1 := BitVec.two_mul_toInt_lt (x := b)
      have h2 := BitVec.le_two_mul_toInt (x := a)
      rw [Bool.or_eq_false_iff]
      rcases hw with rfl | rfl <;> simp at hd ⊢ <;> omega
    refine ⟨_, by simp only [jobCount, hno, if_true]; rfl, ?_⟩
    have hsub : (b - a).toNat = (b.toInt - a.toInt).toNat := by
      rw [BitVec.toInt_eq_toNat_cond, BitVec.toInt_eq_toNat_cond] at *
      rcases hw with rfl | rfl <;> simp only [BitVec.toNat_sub] <;> split <;> split <;> simp_all <;> omega
    rw [BitVec.toNat_signExtend, BitVec.msb_eq_decide]
    rcases hw with rfl | rfl
    · rw [if_neg (by simp only [decide_eq_true_eq]; omega), BitVec.toNat_setWidth, hsub]; omega
    · rw [BitVec.toNat_setWidth, hsub]; split <;> omega

theorem forEach_spec {w : Nat} (hw : w = 32 ∨ w = 64) (signed : Bool) (workers : BitVec 64) (start stop : BitVec w)
    (hW : workers ≠ 0#64)
    (hmax : val signed stop < val signed start → ∃ top : BitVec w, val signed start < val signed top)
    (hd : signed = true → max (val signed stop - val signed start) (val signed start - val signed stop) < 2 ^ (w - 1)) :
    ∃ l, forEach signed workers start stop = some l ∧
      (l.flatMap fun x => (x.calls signed).map (val signed)) = indices (val signed start) (val signed stop) ∧
      l.length = min (max (val signed stop - val signed start) (val signed start - val signed stop)).toNat workers.toNat ∧
      ∀ k (h : k < l.length), (l[k]).index = k ∧ val signed l[k].start < val signed l[k].stop := by
  unfold forEach
  by_cases heq : start = stop
  · subst heq
    rw [if_pos rfl]
    exact ⟨[], rfl, by simp [indices, upFrom], by simp, by simp⟩
  · rw [if_neg heq]
    have hne : val signed start ≠ val signed stop := fun h => heq (val_inj signed h)
    obtain ⟨a, b, ho, hab, hidx, hdiff⟩ := orient_spec hw signed start stop hmax
    obtain ⟨j, hj, hjv⟩ := jobCount_spec hw signed a b hab (by rw [hdiff]; exact hd)
    obtain ⟨g, hg, hginv⟩ := gen_init (jobs := j) hW
    have hWpos : 0 < workers.toNat := by
      have : workers.toNat ≠ 0 := fun h => hW (BitVec.eq_of_toNat_eq (by rw [h]; rfl))
      omega
    have hJpos : 0 < j.toNat := by omega
    have hc : 0 < count j.toNat workers.toNat := by unfold count; omega
    obtain ⟨hn1, hn2⟩ := gen_next j.isLt hWpos hginv hc
    obtain ⟨l, hl, hgood, hflat⟩ := dispatch_good hw signed (val signed a) j.toNat workers.toNat j.isLt hWpos b
      (by omega) (count j.toNat workers.toNat) 0 (workers.toNat + 1) g.next.2 a g.next.1 hc (by omega)
      (by unfold count; omega) hn2 hn1 (by rw [pre_zero]; omega)
    simp only [ho, hj, hg]
    refine ⟨l, hl, ?_, ?_, ?_⟩
    · rw [hflat, pre_zero, hidx]
      congr 1
      · omega
      · omega
    · rw [hgood.len]; unfold count; omega
    · intro k hk
      obtain ⟨h1, h2, h3⟩ := hgood.nth k hk
      rw [hgood.len] at hk
      have := pre_succ j.toNat workers.toNat (0 + k)
      have := bsize_pos (J := j.toNat) (W := workers.toNat) (i := 0 + k) hWpos (by omega)
      exact ⟨by omega, by omega⟩

/-! ### Iterator ranges -/

theorem dispatchIter_good (J W : Nat) (hJ : J < 2 ^ 64) (hW : 0 < W) :
    ∀ (m i fuel : Nat) (g : Gen) (b e : Nat), i < count J W → m = count J W - i → m ≤ fuel →
      GInv J W (i + 1) g → b = pre J W i → e = pre J W (i + 1) →
      ∃ l, dispatchIter fuel g b e i = some l ∧ l.length = count J W - i ∧
        ∀ k (h : k < l.length), l[k] = ⟨pre J W (i + k), pre J W (i + k + 1), i + k⟩ := by
  intro m
  induction m with
  | zero => intro i fuel g b e hi hm; omega
  | succ m ih =>
    intro i fuel g b e hi hm hf hg hb he
    obtain ⟨fuel, rfl⟩ : ∃ f, fuel = f + 1 := ⟨fuel - 1, by omega⟩
    rw [dispatchIter]
    by_cases hlast : i + 1 = count J W
    · have hz : g.next.1 = 0#64 := gen_last hW (by rw [← hlast]; exact hg)
      simp only [hz, ne_eq, not_true_eq_false, if_false]
      refine ⟨_, rfl, by simp; omega, ?_⟩
      intro k hk
      have hk0 : k = 0 := by simp at hk; omega
      subst hk0
      simp only [List.getElem_cons_zero, Nat.add_zero, hb, he]
    · obtain ⟨hn1, hn2⟩ := gen_next hJ hW hg (by omega)
      have hpos := bsize_pos (J := J) (W := W) (i := i + 1) hW (by omega)
      have hnz : g.next.1 ≠ 0#64 := by
        intro h; rw [h] at hn1; simp only [BitVec.toNat_ofNat] at hn1; omega
      obtain ⟨l, hl, hlen, hnth⟩ := ih (i + 1) fuel g.next.2 e (e + g.next.1.toNat) (by omega) (by omega)
        (by omega) hn2 he (by rw [pre_succ, hn1, he])
      simp only [ne_eq, hnz, not_false_eq_true, if_true, hl]
      refine ⟨_, rfl, by simp only [List.length_cons]; omega, ?_⟩
      intro k hk
      cases k with
      | zero => simp only [List.getElem_cons_zero, Nat.add_zero, hb, he]
      | succ k =>
        simp only [List.getElem_cons_succ]
        rw [hnth k (by simpa using hk)]
        rw [show i + 1 + k = i + (k + 1) by omega]

theorem forEachIter_spec (workers : BitVec 64) (n : Nat) (hW : workers ≠ 0#64) (hn : n < 2 ^ 63) :
    ∃ l, forEachIter workers n = some l ∧ l.length = min n workers.toNat ∧
      ∀ k (h : k < l.length), l[k] = ⟨pre n workers.toNat k, pre n workers.toNat (k + 1), k⟩ := by
  unfold forEachIter
  by_cases h0 : n = 0
  · subst h0; exact ⟨[], rfl, by simp, by simp⟩
  · rw [if_neg h0]
    have hv : (BitVec.ofNat 64 n).toNat = n := by rw [BitVec.toNat_ofNat]; omega
    obtain ⟨g, hg, hginv⟩ := gen_init (jobs := BitVec.ofNat 64 n) hW
    rw [hv] at hginv
    have hWpos : 0 < workers.toNat := by
      have : workers.toNat ≠ 0 := fun h => hW (BitVec.eq_of_toNat_eq (by rw [h]; rfl))
      omega
    have hc : 0 < count n workers.toNat := by unfold count; omega
    obtain ⟨hn1, hn2⟩ := gen_next (by omega) hWpos hginv hc
    obtain ⟨l, hl, hlen, hnth⟩ := dispatchIter_good n workers.toNat (by omega) hWpos (count n workers.toNat) 0
      (workers.toNat + 1) g.next.2 0 g.next.1.toNat hc (by omega) (by unfold count; omega) hn2 (by rw [pre_zero])
      (by rw [pre_succ, pre_zero, hn1]; omega)
    simp only [hg]
    refine ⟨l, hl, hlen, ?_⟩
    intro k hk
    rw [hnth k hk]; simp

end Verif.Proofs.ForEach
