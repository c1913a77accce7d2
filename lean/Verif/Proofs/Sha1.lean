import Mathlib.Tactic.IntervalCases
import Verif.Spec.Sha1
import Verif.Model.Hashing
import Verif.Props.Bits

/-! # Lemmas about SHA-1 -/
namespace Verif.Proofs.Sha1
open Verif.Model Verif.Model.Sha1
open Verif.Spec (byteAt)
local notation "Sp" => Verif.Spec.Sha1.Digest

/-! ## message schedule -/

theorem sched_length (m : List (BitVec 32)) (hm : m.length = 16) (t : Nat) :
    (Spec.Sha1.schedule m t).length = 16 + t := by
  induction t with
  | zero => exact hm
  | succ t ih => rw [Spec.Sha1.schedule]; simp only [List.length_append, List.length_singleton, ih]; omega

theorem getD_append_left' {α : Type} (a b : List α) (j : Nat) (d : α) (h : j < a.length) :
    (a ++ b).getD j d = a.getD j d := by
  simp [List.getD_eq_getElem?_getD, List.getElem?_append_left h]

theorem getD_append_right' {α : Type} (a b : List α) (j : Nat) (d : α) (h : a.length ≤ j) :
    (a ++ b).getD j d = b.getD (j - a.length) d := by
  simp [List.getD_eq_getElem?_getD, List.getElem?_append_right h]

theorem sched_prefix (m : List (BitVec 32)) (hm : m.length = 16) (t k j : Nat) (h : j < 16 + t) :
    (Spec.Sha1.schedule m (t + k)).getD j 0 = (Spec.Sha1.schedule m t).getD j 0 := by
  induction k with
  | zero => rfl
  | succ k ih =>
    rw [← Nat.add_assoc, Spec.Sha1.schedule]
    rw [getD_append_left' _ _ _ _ (by rw [sched_length m hm]; omega), ih]

theorem sched_init (m : List (BitVec 32)) (hm : m.length = 16) (j : Nat) (h : j < 16) :
    (Spec.Sha1.schedule m 64).getD j 0 = m.getD j 0 := by
  have := sched_prefix m hm 0 64 j (by omega)
  rw [Nat.zero_add, Spec.Sha1.schedule] at this
  exact this

theorem sched_rec (m : List (BitVec 32)) (hm : m.length = 16) (t : Nat) (h : t < 64) :
    (Spec.Sha1.schedule m 64).getD (t + 16) 0 =
      ((Spec.Sha1.schedule m 64).getD (t + 13) 0 ^^^ (Spec.Sha1.schedule m 64).getD (t + 8) 0 ^^^
       (Spec.Sha1.schedule m 64).getD (t + 2) 0 ^^^ (Spec.Sha1.schedule m 64).getD t 0).rotateLeft 1 := by
  have e : ∀ j, j < 16 + t → (Spec.Sha1.schedule m 64).getD j 0 = (Spec.Sha1.schedule m t).getD j 0 := by
    intro j hj
    have := sched_prefix m hm t (64 - t) j hj
    rwa [show t + (64 - t) = 64 by omega] at this
  have e1 := sched_prefix m hm (t + 1) (63 - t) (t + 16) (by omega)
  rw [show t + 1 + (63 - t) = 64 by omega] at e1
  rw [e1, e _ (by omega), e _ (by omega), e _ (by omega), e _ (by omega), Spec.Sha1.schedule]
  rw [getD_append_right' _ _ _ _ (by rw [sched_length m hm]; omega), sched_length m hm,
    show t + 16 - (16 + t) = 0 by omega]
  rfl

/-! ## the 80 rounds -/

def regAt : Nat → Reg
  | 0 => .a
  | 1 => .b
  | 2 => .c
  | 3 => .d
  | _ => .e

/-- the variable which plays role `j` (0 = `a` … 4 = `e` of the specification) before round `t` -/
def role (j t : Nat) : Reg := regAt ((j + 4 * t % 5) % 5)

def opAt (t : Nat) : Op :=
  if t < 16 then .R0 else if t < 20 then .R1 else if t < 40 then .R2 else if t < 60 then .R3 else .R4

def callAt (t : Nat) : Call := ⟨opAt t, role 0 t, role 1 t, role 2 t, role 3 t, role 4 t, t % 16⟩

theorem program_eq : program = (List.range 80).map callAt := by decide +kernel

theorem role_ne (t : Nat) {i j : Nat} (hi : i < 5) (hj : j < 5) (h : i ≠ j) : role i t ≠ role j t := by
  have key : ∀ r < 5, ∀ i < 5, ∀ j < 5, i ≠ j → regAt ((i + r) % 5) ≠ regAt ((j + r) % 5) := by decide
  exact key (4 * t % 5) (by omega) i hi j hj h

theorem role_succ (j t : Nat) : role (j + 1) (t + 1) = role j t := by
  unfold role
  congr 1
  omega

theorem role_zero_succ (t : Nat) : role 0 (t + 1) = role 4 t := by
  unfold role
  congr 1
  omega

theorem rol_eq (x : BitVec 32) (n : Nat) (h : n < 32) : rol x n = x.rotateLeft n := by
  unfold rol BitVec.rotateLeft BitVec.rotateLeftAux
  rw [Nat.mod_eq_of_lt h]

theorem ch_eq (x y z : BitVec 32) : (x &&& (y ^^^ z)) ^^^ z = Spec.Sha1.ch x y z := by
  apply BitVec.eq_of_getLsbD_eq
  intro i hi
  simp only [Spec.Sha1.ch, BitVec.getLsbD_xor, BitVec.getLsbD_and, BitVec.getLsbD_not, hi, decide_true, Bool.true_and]
  cases x.getLsbD i <;> cases y.getLsbD i <;> cases z.getLsbD i <;> rfl

theorem maj_eq (x y z : BitVec 32) : ((x ||| y) &&& z) ||| (x &&& y) = Spec.Sha1.maj x y z := by
  apply BitVec.eq_of_getLsbD_eq
  intro i hi
  simp only [Spec.Sha1.maj, BitVec.getLsbD_xor, BitVec.getLsbD_and, BitVec.getLsbD_or]
  cases x.getLsbD i <;> cases y.getLsbD i <;> cases z.getLsbD i <;> rfl

theorem term_eq (t : Nat) (wt v w x y z : BitVec 32) :
    z + (opAt t).term wt v w x y =
      v.rotateLeft 5 + Spec.Sha1.f t w x y + z + Spec.Sha1.k t + wt := by
  unfold opAt Spec.Sha1.f Spec.Sha1.k
  by_cases h1 : t < 16
  · rw [if_pos h1, if_pos (by omega), if_pos (by omega), ← rol_eq _ _ (by decide), ← ch_eq]
    show z + (_ + wt + _ + _) = _
    ac_rfl
  by_cases h2 : t < 20
  · rw [if_neg h1, if_pos h2, if_pos (by omega), if_pos (by omega), ← rol_eq _ _ (by decide), ← ch_eq]
    show z + (_ + wt + _ + _) = _
    ac_rfl
  by_cases h3 : t < 40
  · rw [if_neg h1, if_neg h2, if_pos h3, if_neg h2, if_pos h3, if_neg h2, if_pos h3, ← rol_eq _ _ (by decide)]
    show z + ((w ^^^ x ^^^ y) + wt + _ + _) = _ + (w ^^^ x ^^^ y) + z + _ + wt
    ac_rfl
  by_cases h4 : t < 60
  · rw [if_neg h1, if_neg h2, if_neg h3, if_pos h4, if_neg h2, if_neg h3, if_pos h4, if_neg h2, if_neg h3, if_pos h4,
      ← rol_eq _ _ (by decide), ← maj_eq]
    show z + (_ + wt + _ + _) = _
    ac_rfl
  · rw [if_neg h1, if_neg h2, if_neg h3, if_neg h4, if_neg h2, if_neg h3, if_neg h4, if_neg h2, if_neg h3, if_neg h4,
      ← rol_eq _ _ (by decide)]
    show z + ((w ^^^ x ^^^ y) + wt + _ + _) = _ + (w ^^^ x ^^^ y) + z + _ + wt
    ac_rfl

theorem and15 (n : Nat) : n &&& 15 = n % 16 := Nat.and_two_pow_sub_one_eq_mod n 4

/-- what holds before round `t` -/
structure Inv (w : Nat → BitVec 32) (t : Nat) (s : Locals) (d : Sp) : Prop where
  ra : s.reg (role 0 t) = d.a
  rb : s.reg (role 1 t) = d.b
  rc : s.reg (role 2 t) = d.c
  rd : s.reg (role 3 t) = d.d
  re : s.reg (role 4 t) = d.e
  bl : ∀ j, t ≤ j + 16 → (j < t ∨ j < 16) → s.bl (j % 16) = w j

theorem inv_step (w : Nat → BitVec 32)
    (hw : ∀ t < 64, w (t + 16) = (w (t + 13) ^^^ w (t + 8) ^^^ w (t + 2) ^^^ w t).rotateLeft 1)
    (t : Nat) (ht : t < 80) (s : Locals) (d : Sp) (h : Inv w t s d) :
    Inv w (t + 1) ((callAt t).run s) (Spec.Sha1.round (w t) t d) := by
  have hbl : ∀ j, t + 1 ≤ j + 16 → (j < t + 1 ∨ j < 16) → (opAt t).update s.bl (t % 16) (j % 16) = w j := by
    intro j h1 h2
    by_cases h16 : t < 16
    · rw [show opAt t = .R0 by unfold opAt; rw [if_pos h16]]
      exact h.bl j (by omega) (by omega)
    · have hup : ∀ i, (opAt t).update s.bl (t % 16) i = if i = t % 16 then blk s.bl (t % 16) else s.bl i := by
        intro i
        unfold opAt
        rw [if_neg h16]
        split
        · rfl
        · split
          · rfl
          · split <;> rfl
      rw [hup]
      by_cases hj : j = t
      · subst hj
        rw [if_pos rfl, blk, and15, and15, and15, rol_eq _ _ (by decide)]
        obtain ⟨u, rfl⟩ : ∃ u, j = u + 16 := ⟨j - 16, by omega⟩
        rw [hw u (by omega), ← h.bl (u + 13) (by omega) (by omega), ← h.bl (u + 8) (by omega) (by omega),
          ← h.bl (u + 2) (by omega) (by omega), ← h.bl u (by omega) (by omega)]
        rw [show ((u + 16) % 16 + 13) % 16 = (u + 13) % 16 by omega,
          show ((u + 16) % 16 + 8) % 16 = (u + 8) % 16 by omega,
          show ((u + 16) % 16 + 2) % 16 = (u + 2) % 16 by omega, show (u + 16) % 16 = u % 16 by omega]
      · rw [if_neg (by omega)]
        exact h.bl j (by omega) (by omega)
  have hwt : (opAt t).update s.bl (t % 16) (t % 16) = w t := hbl t (by omega) (by omega)
  have hreg : ∀ r, ((callAt t).run s).reg r =
      if r = role 1 t then (d.b).rotateLeft 30
      else if r = role 4 t then d.a.rotateLeft 5 + Spec.Sha1.f t d.b d.c d.d + d.e + Spec.Sha1.k t + w t
      else s.reg r := by
    intro r
    unfold Call.run callAt
    dsimp only
    rw [hwt, h.ra, h.rb, h.rc, h.rd, h.re, term_eq, rol_eq _ _ (by decide)]
  refine ⟨?_, ?_, ?_, ?_, ?_, ?_⟩
  · rw [role_zero_succ, hreg, if_neg (role_ne t (by decide) (by decide) (by decide)), if_pos rfl]; rfl
  · rw [role_succ, hreg, if_neg (role_ne t (by decide) (by decide) (by decide)),
      if_neg (role_ne t (by decide) (by decide) (by decide)), h.ra]; rfl
  · rw [role_succ, hreg, if_pos rfl]; rfl
  · rw [role_succ, hreg, if_neg (role_ne t (by decide) (by decide) (by decide)),
      if_neg (role_ne t (by decide) (by decide) (by decide)), h.rc]; rfl
  · rw [role_succ, hreg, if_neg (role_ne t (by decide) (by decide) (by decide)),
      if_neg (role_ne t (by decide) (by decide) (by decide)), h.rd]; rfl
  · exact hbl

theorem inv_all (l : List (BitVec 32))
    (hw : ∀ t < 64, l.getD (t + 16) 0 =
      (l.getD (t + 13) 0 ^^^ l.getD (t + 8) 0 ^^^ l.getD (t + 2) 0 ^^^ l.getD t 0).rotateLeft 1)
    (s : Locals) (d : Sp) (h : Inv (fun t => l.getD t 0) 0 s d) (t : Nat) (ht : t ≤ 80) :
    Inv (fun t => l.getD t 0) t (((List.range t).map callAt).foldl (fun s c => c.run s) s) (Spec.Sha1.rounds l t d) := by
  induction t with
  | zero => exact h
  | succ t ih =>
    rw [List.range_succ, List.map_append, List.foldl_append, Spec.Sha1.rounds]
    exact inv_step _ hw t (by omega) _ _ (ih (by omega))

/-! ## one block -/

def conv (d : Sp) : Digest := ⟨d.a, d.b, d.c, d.d, d.e⟩

theorem eq_of_bytes4 (x y : BitVec 32) (h : ∀ i < 4, byteAt x i = byteAt y i) : x = y := by
  apply BitVec.eq_of_getLsbD_eq
  intro i hi
  have := congrArg (fun b => b.getLsbD (i % 8)) (h (i / 8) (by omega))
  simp only [byteAt, BitVec.getLsbD_setWidth, BitVec.getLsbD_ushiftRight, show i % 8 < 8 by omega, decide_true,
    Bool.true_and, show 8 * (i / 8) + i % 8 = i by omega] at this
  exact this

theorem loadWord_eq (block : ByteBlock) (l : List (BitVec 8)) (i : Nat) (hi : i < 16)
    (h : ∀ j < 64, l.getD j 0 = block j) : loadWord block i = Spec.Sha1.wordOf l i := by
  unfold loadWord Spec.Sha1.wordOf
  rw [h _ (by omega), h _ (by omega), h _ (by omega), h _ (by omega)]
  generalize block (4 * i) = a
  generalize block (4 * i + 1) = b
  generalize block (4 * i + 2) = c
  generalize block (4 * i + 3) = d
  apply eq_of_bytes4
  intro j hj
  rw [Props.C19_byte_reverse32 _ j hj]
  unfold byteAt
  apply BitVec.eq_of_getLsbD_eq
  intro k hk
  simp only [BitVec.getLsbD_setWidth, BitVec.getLsbD_ushiftRight, hk, decide_true, Bool.true_and, BitVec.getLsbD_append]
  interval_cases j <;> interval_cases k <;> rfl

theorem processBlock_eq (block : ByteBlock) (l : List (BitVec 8)) (h : ∀ j < 64, l.getD j 0 = block j) (d : Sp) :
    processBlock block (conv d) = conv (Spec.Sha1.compress d l) := by
  have hm : (Spec.Sha1.words l).length = 16 := by simp [Spec.Sha1.words]
  have hinv := inv_all (Spec.Sha1.schedule (Spec.Sha1.words l) 64) (sched_rec _ hm)
    { bl := loadWord block, reg := copyDigest (conv d) } d
    ⟨rfl, rfl, rfl, rfl, rfl, by
      intro j _ hj
      have hj : j < 16 := by omega
      show loadWord block (j % 16) = _
      rw [Nat.mod_eq_of_lt hj, sched_init _ hm j hj, loadWord_eq block l j hj h]
      simp [Spec.Sha1.words, List.getD_eq_getElem?_getD, hj]⟩ 80 (by decide)
  rw [← program_eq] at hinv
  unfold processBlock Spec.Sha1.compress
  dsimp only
  generalize Spec.Sha1.rounds (Spec.Sha1.schedule (Spec.Sha1.words l) 64) 80 d = R at hinv ⊢
  generalize List.foldl (fun s c => Call.run c s) { bl := loadWord block, reg := copyDigest (conv d) } program = S at hinv ⊢
  have ha := hinv.ra; have hb := hinv.rb; have hc := hinv.rc; have hd := hinv.rd; have he := hinv.re
  rw [show role 0 80 = .a from rfl] at ha
  rw [show role 1 80 = .b from rfl] at hb
  rw [show role 2 80 = .c from rfl] at hc
  rw [show role 3 80 = .d from rfl] at hd
  rw [show role 4 80 = .e from rfl] at he
  simp only [conv]
  rw [ha, hb, hc, hd, he]
  simp only [BitVec.add_comm]

/-! ## many blocks -/

theorem compressAll_zero (bytes : List (BitVec 8)) (h : Sp) : Spec.Sha1.compressAll 0 bytes h = h := rfl

theorem compressAll_succ (n : Nat) (bytes : List (BitVec 8)) (h : Sp) : Spec.Sha1.compressAll (n + 1) bytes h =
    Spec.Sha1.compressAll n (bytes.drop 64) (Spec.Sha1.compress h (bytes.take 64)) := by
  delta Spec.Sha1.compressAll
  exact rfl

attribute [local irreducible] Spec.Sha1.compress processBlock Spec.Sha1.compressAll

theorem compressAll_snoc (n : Nat) : ∀ (bytes : List (BitVec 8)) (h : Sp),
    Spec.Sha1.compressAll (n + 1) bytes h =
      Spec.Sha1.compress (Spec.Sha1.compressAll n bytes h) ((bytes.drop (64 * n)).take 64) := by
  induction n with
  | zero => intro bytes h; rw [compressAll_succ, compressAll_zero, compressAll_zero, Nat.mul_zero, List.drop_zero]
  | succ n ih =>
    intro bytes h
    rw [compressAll_succ, ih, compressAll_succ, List.drop_drop, show 64 + 64 * n = 64 * (n + 1) by omega]

theorem compressAll_append (n : Nat) : ∀ (a b : List (BitVec 8)) (h : Sp), 64 * n ≤ a.length →
    Spec.Sha1.compressAll n (a ++ b) h = Spec.Sha1.compressAll n a h := by
  induction n with
  | zero => intros; rw [compressAll_zero, compressAll_zero]
  | succ n ih =>
    intro a b h hl
    rw [compressAll_succ, compressAll_succ, List.take_append_of_le_length (by omega),
      List.drop_append_of_le_length (by omega), ih _ _ _ (by rw [List.length_drop]; omega)]

/-! ## the hasher -/

/-- the state after the bytes `msg` -/
structure Abs (s : State) (msg : List (BitVec 8)) : Prop where
  digest : s.digest = conv (Spec.Sha1.compressAll (msg.length / 64) msg Spec.Sha1.initial)
  blocks : s.processedBlocks = BitVec.ofNat 32 (msg.length / 64)
  len : s.currentLength = msg.length % 64
  cur : ∀ j < msg.length % 64, s.current j = msg.getD (64 * (msg.length / 64) + j) 0
  fin : s.finished = false

theorem abs_init (g : ByteBlock) : Abs (init g) [] := by
  have e : ([] : List (BitVec 8)).length / 64 = 0 := by rw [List.length_nil]
  refine ⟨?_, ?_, ?_, ?_, rfl⟩
  · rw [e, compressAll_zero]; rfl
  · rw [e]; rfl
  · rfl
  · intro j hj
    exact absurd hj (Nat.not_lt_zero _)

theorem addByte_eq (s : State) (b : BitVec 8) (h : s.currentLength < 64) : addByte s b = addBytes s [b] := by
  unfold addByte addBytes
  rw [if_pos h, if_pos (by rw [List.length_singleton]; omega)]
  congr 4
  funext j
  by_cases hj : j = s.currentLength
  · subst hj; simp
  · rw [if_neg hj, if_neg (by simp; omega)]

theorem abs_addBytes {s : State} {msg : List (BitVec 8)} (h : Abs s msg) (bytes : List (BitVec 8))
    (hl : msg.length % 64 + bytes.length ≤ 64) : ∃ s', addBytes s bytes = some s' ∧ Abs s' (msg ++ bytes) := by
  unfold addBytes
  rw [if_pos (by rw [h.len]; exact hl)]
  refine ⟨_, rfl, ?_⟩
  unfold flush
  dsimp only
  have hcur : ∀ j < msg.length % 64 + bytes.length,
      (if s.currentLength ≤ j ∧ j < s.currentLength + bytes.length then bytes.getD (j - s.currentLength) 0
        else s.current j) = (msg ++ bytes).getD (64 * (msg.length / 64) + j) 0 := by
    intro j hj
    rw [h.len]
    by_cases hlt : j < msg.length % 64
    · rw [if_neg (by omega), h.cur j hlt, getD_append_left' _ _ _ _ (by omega)]
    · rw [if_pos (by omega), getD_append_right' _ _ _ _ (by omega)]
      congr 1; omega
  by_cases hfull : msg.length % 64 + bytes.length = 64
  · rw [if_pos (by rw [h.len]; exact hfull)]
    have hdiv : (msg ++ bytes).length / 64 = msg.length / 64 + 1 := by rw [List.length_append]; omega
    have hmod : (msg ++ bytes).length % 64 = 0 := by rw [List.length_append]; omega
    refine ⟨?_, ?_, ?_, ?_, h.fin⟩
    · dsimp only
      rw [hdiv, compressAll_snoc, compressAll_append _ _ _ _ (by omega), h.digest]
      apply processBlock_eq
      intro j hj
      rw [hcur j (by omega)]
      simp [List.getD_eq_getElem?_getD, List.getElem?_take, hj]
    · dsimp only
      rw [hdiv, h.blocks]
      exact (BitVec.ofNat_add _ _).symm
    · dsimp only; rw [hmod]
    · rw [hmod]; simp
  · rw [if_neg (by rw [h.len]; exact hfull)]
    have hdiv : (msg ++ bytes).length / 64 = msg.length / 64 := by rw [List.length_append]; omega
    have hmod : (msg ++ bytes).length % 64 = msg.length % 64 + bytes.length := by rw [List.length_append]; omega
    refine ⟨?_, ?_, ?_, ?_, h.fin⟩
    · dsimp only
      rw [hdiv, compressAll_append _ _ _ _ (by omega), h.digest]
    · dsimp only; rw [hdiv, h.blocks]
    · dsimp only; rw [hmod, h.len]
    · rw [hmod, hdiv]; exact hcur

theorem abs_addByte {s : State} {msg : List (BitVec 8)} (h : Abs s msg) (b : BitVec 8) :
    ∃ s', addByte s b = some s' ∧ Abs s' (msg ++ [b]) := by
  rw [addByte_eq s b (by rw [h.len]; omega)]
  exact abs_addBytes h [b] (by simp; omega)

theorem abs_feedByte {s : State} {msg : List (BitVec 8)} (h : Abs s msg) (b : BitVec 8) :
    ∃ s', feedByte s b = some s' ∧ Abs s' (msg ++ [b]) := by
  unfold feedByte
  rw [h.fin]
  exact abs_addByte h b

theorem abs_feedLoop (fuel : Nat) : ∀ {s : State} {msg : List (BitVec 8)} (data : List (BitVec 8)), Abs s msg →
    (data = [] ∨ msg.length % 64 = 0) → data.length < fuel →
    ∃ s', feedLoop fuel s data = some s' ∧ Abs s' (msg ++ data) := by
  induction fuel with
  | zero => intros; omega
  | succ fuel ih =>
    intro s msg data h h0 hf
    rw [feedLoop]
    by_cases he : data = []
    · subst he
      exact ⟨s, rfl, by simpa using h⟩
    · have h0 : msg.length % 64 = 0 := by simpa [he] using h0
      have hpos : 0 < data.length := List.length_pos_iff.mpr he
      rw [if_neg (by simpa using he)]
      dsimp only
      obtain ⟨s1, e1, a1⟩ := abs_addBytes h (data.take (min 64 data.length)) (by rw [List.length_take]; omega)
      rw [e1, Option.bind_some]
      have hd : data.drop (min 64 data.length) = [] ∨
          (msg ++ data.take (min 64 data.length)).length % 64 = 0 := by
        by_cases h64 : data.length ≤ 64
        · left; rw [show min 64 data.length = data.length by omega, List.drop_length]
        · right; rw [List.length_append, List.length_take]; omega
      obtain ⟨s2, e2, a2⟩ := ih (data.drop (min 64 data.length)) a1 hd (by rw [List.length_drop]; omega)
      refine ⟨s2, e2, ?_⟩
      rwa [List.append_assoc, List.take_append_drop] at a2

theorem abs_feed {s : State} {msg : List (BitVec 8)} (h : Abs s msg) (data : List (BitVec 8)) :
    ∃ s', feed s data = some s' ∧ Abs s' (msg ++ data) := by
  unfold feed
  rw [h.fin]
  by_cases he : data = []
  · subst he
    exact ⟨s, rfl, by simpa using h⟩
  · rw [if_pos (by simpa using he)]
    by_cases h0 : s.currentLength ≠ 0
    · rw [if_pos h0]
      have hpos : 0 < data.length := List.length_pos_iff.mpr he
      dsimp only
      rw [h.len] at h0 ⊢
      obtain ⟨s1, e1, a1⟩ := abs_addBytes h (data.take (min (64 - msg.length % 64) data.length))
        (by rw [List.length_take]; omega)
      rw [e1, Option.bind_some]
      have hd : data.drop (min (64 - msg.length % 64) data.length) = [] ∨
          (msg ++ data.take (min (64 - msg.length % 64) data.length)).length % 64 = 0 := by
        by_cases h64 : data.length ≤ 64 - msg.length % 64
        · left; rw [show min (64 - msg.length % 64) data.length = data.length by omega, List.drop_length]
        · right; rw [List.length_append, List.length_take]; omega
      obtain ⟨s2, e2, a2⟩ := abs_feedLoop (data.length + 1) _ a1 hd (by rw [List.length_drop]; omega)
      refine ⟨s2, e2, ?_⟩
      rwa [List.append_assoc, List.take_append_drop] at a2
    · rw [if_neg h0]
      exact abs_feedLoop _ _ h (.inr (by rw [← h.len]; omega)) (by omega)

theorem abs_applyAll (is : List Input) : ∀ {s : State} {msg : List (BitVec 8)}, Abs s msg →
    ∃ s', applyAll s is = some s' ∧ Abs s' (msg ++ is.flatMap Input.bytes) := by
  induction is with
  | nil => intro s msg h; exact ⟨s, rfl, by simpa using h⟩
  | cons i is ih =>
    intro s msg h
    have : ∃ s1, apply s i = some s1 ∧ Abs s1 (msg ++ i.bytes) := by
      cases i with
      | byte b => exact abs_feedByte h b
      | data d => exact abs_feed h d
    obtain ⟨s1, e1, a1⟩ := this
    obtain ⟨s2, e2, a2⟩ := ih a1
    refine ⟨s2, by rw [applyAll, e1, Option.bind_some, e2], ?_⟩
    rwa [List.flatMap_cons, ← List.append_assoc]

/-- the padded message with an arbitrary number in the length field -/
def padWith (bits : Nat) (msg : List (BitVec 8)) : List (BitVec 8) :=
  msg ++ 0x80#8 :: List.replicate (Spec.Sha1.zeroBytes msg.length) 0 ++ Spec.Sha1.bigEndian64 bits

theorem hashedBits_eq {s : State} {msg : List (BitVec 8)} (h : Abs s msg) :
    hashedBits s = byteReverse64 (BitVec.ofNat 64 (8 * (msg.length % 2 ^ 38))) := by
  unfold hashedBits
  congr 1
  rw [h.blocks, h.len]
  apply BitVec.eq_of_toNat_eq
  simp only [BitVec.toNat_mul, BitVec.toNat_add, BitVec.toNat_setWidth, BitVec.toNat_ofNat]
  omega

theorem memBytes_reverse64 (n : Nat) : memBytes 8 (byteReverse64 (BitVec.ofNat 64 n)) = Spec.Sha1.bigEndian64 n := by
  unfold memBytes Spec.Sha1.bigEndian64
  apply List.map_congr_left
  intro i hi
  have hi : i < 8 := by simpa using hi
  have := Props.C19_byte_reverse64 (BitVec.ofNat 64 n) i hi
  unfold byteAt at this
  rw [this]
  apply BitVec.eq_of_toNat_eq
  rw [BitVec.toNat_setWidth, BitVec.toNat_ushiftRight, BitVec.toNat_ofNat, BitVec.toNat_ofNat,
    Nat.shiftRight_eq_div_pow, show 256 ^ (7 - i) = 2 ^ (8 * (7 - i)) by rw [Nat.pow_mul]]
  interval_cases i <;> omega

theorem memBytes_reverse32 (x : BitVec 32) : memBytes 4 (byteReverse32 x) = Spec.Sha1.bigEndian32 x := by
  unfold memBytes Spec.Sha1.bigEndian32
  apply List.map_congr_left
  intro i hi
  exact Props.C19_byte_reverse32 x i (by simpa using hi)

theorem bigEndian64_length (n : Nat) : (Spec.Sha1.bigEndian64 n).length = 8 := by simp [Spec.Sha1.bigEndian64]

theorem padWith_length (bits : Nat) (msg : List (BitVec 8)) : (padWith bits msg).length % 64 = 0 := by
  simp only [padWith, List.length_append, List.length_cons, List.length_replicate, bigEndian64_length,
    Spec.Sha1.zeroBytes]
  omega

theorem finish_eq {s : State} {msg : List (BitVec 8)} (h : Abs s msg) :
    ∃ s', finish s = some s' ∧ s'.finished = true ∧
      value s' = Spec.Sha1.digestBytes (Spec.Sha1.compressAll ((padWith (8 * (msg.length % 2 ^ 38)) msg).length / 64)
        (padWith (8 * (msg.length % 2 ^ 38)) msg) Spec.Sha1.initial) := by
  unfold finish
  rw [h.fin]
  simp only [Bool.false_eq_true, if_false]
  rw [hashedBits_eq h, memBytes_reverse64]
  obtain ⟨s1, e1, a1⟩ := abs_addByte h 0x80#8
  rw [e1, Option.bind_some]
  -- the two zero paddings
  have step : ∃ s3, ((if s1.currentLength > 56 then addBytes s1 (List.replicate (64 - s1.currentLength) 0) else some s1).bind
      fun s => if s.currentLength < 56 then addBytes s (List.replicate (56 - s.currentLength) 0) else some s) = some s3 ∧
      Abs s3 (msg ++ [0x80#8] ++ List.replicate (Spec.Sha1.zeroBytes msg.length) 0) := by
    have hl1 : s1.currentLength = (msg.length + 1) % 64 := by rw [a1.len, List.length_append]; rfl
    by_cases hbig : s1.currentLength > 56
    · rw [if_pos hbig]
      obtain ⟨s2, e2, a2⟩ := abs_addBytes a1 (List.replicate (64 - s1.currentLength) 0)
        (by rw [List.length_replicate, ← a1.len]; omega)
      rw [e2, Option.bind_some]
      have hl2 : s2.currentLength = 0 := by
        rw [a2.len, List.length_append, List.length_append, List.length_replicate, hl1]
        simp; omega
      rw [if_pos (by omega), hl2]
      obtain ⟨s3, e3, a3⟩ := abs_addBytes a2 (List.replicate (56 - 0) 0)
        (by rw [List.length_replicate, ← a2.len, hl2]; decide)
      refine ⟨s3, e3, ?_⟩
      rw [List.append_assoc, List.replicate_append_replicate] at a3
      rwa [show Spec.Sha1.zeroBytes msg.length = 64 - s1.currentLength + (56 - 0) by
        unfold Spec.Sha1.zeroBytes; omega]
    · rw [if_neg hbig, Option.bind_some]
      by_cases hsm : s1.currentLength < 56
      · rw [if_pos hsm]
        obtain ⟨s3, e3, a3⟩ := abs_addBytes a1 (List.replicate (56 - s1.currentLength) 0)
          (by rw [List.length_replicate, ← a1.len]; omega)
        refine ⟨s3, e3, ?_⟩
        rwa [show Spec.Sha1.zeroBytes msg.length = 56 - s1.currentLength by
          unfold Spec.Sha1.zeroBytes; omega]
      · rw [if_neg hsm]
        refine ⟨s1, rfl, ?_⟩
        rw [show Spec.Sha1.zeroBytes msg.length = 0 by unfold Spec.Sha1.zeroBytes; omega]
        simpa using a1
  obtain ⟨s3, e3, a3⟩ := step
  rw [← Option.bind_assoc, e3, Option.bind_some]
  obtain ⟨s4, e4, a4⟩ := abs_addBytes a3 (Spec.Sha1.bigEndian64 (8 * (msg.length % 2 ^ 38))) (by
    rw [bigEndian64_length]
    simp only [List.length_append, List.length_replicate, List.length_singleton, Spec.Sha1.zeroBytes]
    omega)
  rw [e4]
  have hp : msg ++ [0x80#8] ++ List.replicate (Spec.Sha1.zeroBytes msg.length) 0 ++
      Spec.Sha1.bigEndian64 (8 * (msg.length % 2 ^ 38)) = padWith (8 * (msg.length % 2 ^ 38)) msg := by
    unfold padWith; simp
  rw [hp] at a4
  refine ⟨_, rfl, rfl, ?_⟩
  unfold value Spec.Sha1.digestBytes
  dsimp only
  simp only [memBytes_reverse32]
  rw [a4.digest]
  simp only [conv]

end Verif.Proofs.Sha1
