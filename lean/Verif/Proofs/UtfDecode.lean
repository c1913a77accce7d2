import Verif.Model.UtfDecode
import Verif.Proofs.Utf8

/-! Traversal loops as pure list functions. -/
namespace Verif.Proofs
open Verif.Spec Verif.Model

/-- emit reports until the callback says stop -/
def runLog (cb : Callback) (l : Log) : List Report → Log
  | [] => l
  | r :: rs => if l.stop then l else runLog cb (l.emit cb r) rs

theorem runLog_stop {cb : Callback} {l : Log} (h : l.stop = true) (rs : List Report) : runLog cb l rs = l := by
  cases rs <;> simp [runLog, h]

theorem runLog_append (cb : Callback) (l : Log) (xs ys : List Report) :
    runLog cb l (xs ++ ys) = runLog cb (runLog cb l xs) ys := by
  induction xs generalizing l with
  | nil => rfl
  | cons x xs ih =>
    simp only [List.cons_append, runLog]
    split
    · next h => rw [runLog_stop h]
    · exact ih _

theorem runLog_true (l : Log) (h : l.stop = false) (rs : List Report) :
    (runLog always l rs).reports = l.reports ++ rs := by
  induction rs generalizing l with
  | nil => simp [runLog]
  | cons r rs ih =>
    simp only [runLog, h]
    rw [if_neg (by simp), ih _ (by simp [Log.emit, always])]
    simp [Log.emit]

theorem runLog_cut (cb : Callback) (l : Log) (h : l.stop = false) (rs : List Report) :
    (runLog cb l rs).reports = l.reports ++ cut cb l.reports rs := by
  induction rs generalizing l with
  | nil => simp [runLog, cut]
  | cons r rs ih =>
    simp only [runLog, h, cut]
    rw [if_neg (by simp)]
    by_cases hc : cb (l.reports ++ [r]) = true
    · rw [if_pos hc, ih _ (by simp [Log.emit, hc])]
      simp [Log.emit]
    · rw [if_neg hc, runLog_stop (by simp [Log.emit, hc])]
      simp [Log.emit]

section
variable {δ υ : Type} (ops : DecoderOps δ υ) (raw : υ → BitVec 32)

def rawL (start : Nat) : List υ → List Report
  | [] => []
  | u :: us => ⟨raw u, start, 1⟩ :: rawL (start + 1) us

def fwdL : List υ → δ → Nat → List υ → List Report
  | [], _, _, _ => []
  | u :: us, d, cp, pre =>
    let d' := ops.feed d u
    let grp := pre ++ [u]
    if ops.hasValue d' then ⟨ops.value d', cp, grp.length⟩ :: fwdL us d' (cp + grp.length) []
    else if ops.error d' then rawL raw cp grp ++ fwdL us (ops.clearError d') (cp + grp.length) []
    else fwdL us d' cp grp

def feedL (ops : DecoderOps δ υ) : List υ → δ → δ
  | [], d => d
  | u :: us, d => let d' := ops.feed d u; if ops.error d' then d' else feedL ops us d'

def revL (boundary : υ → Bool) (maxCu dataStart : Nat) : List υ → δ → List υ → List Report
  | [], _, _ => []
  | u :: rr, d, suf =>
    let grp := u :: suf
    if grp.length == maxCu || boundary u then
      let d' := feedL ops grp d
      if ops.hasValue d' then
        ⟨ops.value d', dataStart + rr.length, grp.length⟩ :: revL boundary maxCu dataStart rr d' []
      else if ops.error d' then
        (rawL raw (dataStart + rr.length) grp).reverse ++ revL boundary maxCu dataStart rr (ops.clearError d') []
      else revL boundary maxCu dataStart rr d' []
    else revL boundary maxCu dataStart rr d grp

theorem emitRawFwd_eq (cb : Callback) (str front grp rest : List υ) (hs : str = front ++ grp ++ rest) (l : Log) :
    emitRawFwd raw (fun i => str[i]?) cb grp.length front.length l = some (runLog cb l (rawL raw front.length grp)) := by
  induction grp generalizing front l with
  | nil => rfl
  | cons u us ih =>
    simp only [List.length_cons, emitRawFwd, rawL, runLog]
    split
    · rfl
    · have hu : str[front.length]? = some u := by rw [hs]; simp
      rw [hu]
      have := ih (front ++ [u]) (by rw [hs]; simp) (l.emit cb ⟨raw u, front.length, 1⟩)
      simpa using this

theorem rawL_append (start : Nat) (xs ys : List υ) :
    rawL raw start (xs ++ ys) = rawL raw start xs ++ rawL raw (start + xs.length) ys := by
  induction xs generalizing start with
  | nil => simp [rawL]
  | cons x xs ih => simp only [List.cons_append, rawL, ih, List.length_cons]; congr 3; omega

theorem emitRawRev_eq (cb : Callback) (str front grp rest : List υ) (hs : str = front ++ grp ++ rest) (l : Log) :
    emitRawRev raw (fun i => str[i]?) cb front.length grp.length l =
      some (runLog cb l (rawL raw front.length grp).reverse) := by
  induction grp using snoc_induction generalizing rest l with
  | nil => rfl
  | snoc us u ih =>
    rw [rawL_append]
    simp only [List.length_append, List.length_singleton, emitRawRev, rawL, List.reverse_append, List.reverse_cons,
      List.reverse_nil, List.nil_append, List.singleton_append, runLog]
    split
    · rfl
    · have hu : str[front.length + us.length]? = some u := by
        rw [hs, List.append_assoc, List.append_assoc, List.getElem?_append_right (by omega),
          List.getElem?_append_right (by omega)]
        simp
      rw [hu]
      exact ih (u :: rest) (by rw [hs]; simp) _

theorem fwdLoop_eq (cb : Callback) (str front pre rest : List υ) (hs : str = front ++ pre ++ rest) (d : δ) (l : Log) :
    fwdLoop ops raw (fun i => str[i]?) cb rest.length (front.length + pre.length) d front.length pre.length l =
      some (runLog cb l (fwdL ops raw rest d front.length pre)) := by
  induction rest generalizing front pre d l with
  | nil => rfl
  | cons u us ih =>
    simp only [List.length_cons, fwdLoop, fwdL]
    by_cases hst : l.stop = true
    · rw [if_pos hst, runLog_stop hst]
    · rw [if_neg hst]
      have hu : str[front.length + pre.length]? = some u := by
        rw [hs, List.append_assoc, List.getElem?_append_right (by omega), List.getElem?_append_right (by omega)]
        simp
      rw [hu]
      simp only [Option.bind_some]
      split
      · have := ih (front ++ pre ++ [u]) [] (by rw [hs]; simp) (ops.feed d u)
          (l.emit cb ⟨ops.value (ops.feed d u), front.length, pre.length + 1⟩)
        simp only [runLog, if_neg hst, List.length_append, List.length_singleton, List.length_nil,
          Nat.add_zero] at this ⊢
        rw [this, Nat.add_assoc]
      · split
        · have h1 := emitRawFwd_eq raw cb str front (pre ++ [u]) us (by rw [hs]; simp) l
          simp only [List.length_append, List.length_singleton] at h1
          rw [h1, runLog_append]
          have := ih (front ++ pre ++ [u]) [] (by rw [hs]; simp) (ops.clearError (ops.feed d u))
            (runLog cb l (rawL raw front.length (pre ++ [u])))
          simp only [List.length_append, List.length_singleton, List.length_nil, Nat.add_zero,
            Option.bind_some] at this ⊢
          rw [this, Nat.add_assoc]
        · have := ih front (pre ++ [u]) (by rw [hs]; simp) (ops.feed d u) l
          simp only [List.length_append, List.length_singleton] at this
          rw [← this, Nat.add_assoc]

theorem feedGroup_eq (str front grp rest : List υ) (hs : str = front ++ grp ++ rest) (d : δ) :
    feedGroup ops (fun i => str[i]?) grp.length front.length d = some (feedL ops grp d) := by
  induction grp generalizing front d with
  | nil => rfl
  | cons u us ih =>
    have hu : str[front.length]? = some u := by rw [hs]; simp
    simp only [List.length_cons, feedGroup, feedL, hu, Option.bind_some]
    split
    · rfl
    · have := ih (front ++ [u]) (by rw [hs]; simp) (ops.feed d u)
      simpa using this

theorem revLoop_eq (boundary : υ → Bool) (maxCu : Nat) (cb : Callback) (str front mid suf rest : List υ)
    (hs : str = front ++ mid ++ suf ++ rest) (d : δ) (l : Log) :
    revLoop ops raw (fun i => str[i]?) cb boundary maxCu front.length mid.length d suf.length l =
      some (runLog cb l (revL ops raw boundary maxCu front.length mid.reverse d suf)) := by
  induction mid using snoc_induction generalizing suf rest d l with
  | nil => rfl
  | snoc us u ih =>
    simp only [List.length_append, List.length_singleton, revLoop, List.reverse_append, List.reverse_cons,
      List.reverse_nil, List.nil_append, List.singleton_append, revL]
    by_cases hst : l.stop = true
    · rw [if_pos hst, runLog_stop hst]
    · rw [if_neg hst]
      have hu : str[front.length + us.length]? = some u := by
        rw [hs, List.append_assoc, List.append_assoc, List.append_assoc,
          List.getElem?_append_right (by omega), List.getElem?_append_right (by omega)]
        simp
      rw [hu]
      have hg := feedGroup_eq ops str (front ++ us) (u :: suf) rest (by rw [hs]; simp) d
      have hr := fun l => emitRawRev_eq raw cb str (front ++ us) (u :: suf) rest (by rw [hs]; simp) l
      simp only [List.length_append, List.length_cons] at hg hr
      simp only [Option.bind_some, List.length_cons, List.length_reverse, hg]
      split
      · split
        · have := ih [] (u :: suf ++ rest) (by rw [hs]; simp) (feedL ops (u :: suf) d)
            (l.emit cb ⟨ops.value (feedL ops (u :: suf) d), front.length + us.length, suf.length + 1⟩)
          simp only [runLog, if_neg hst]
          exact this
        · split
          · rw [hr, runLog_append]
            simp only [Option.bind_some]
            exact ih [] (u :: suf ++ rest) (by rw [hs]; simp) _ _
          · exact ih [] (u :: suf ++ rest) (by rw [hs]; simp) _ _
      · have := ih (u :: suf) rest (by rw [hs]; simp) d l
        simpa using this
end

/-! ### The pure trace of a traversal -/

def dataStart8 (str : List (BitVec 8)) : Nat := if hasBom8 str then 3 else 0

def trace8 (raw : BitVec 8 → BitVec 32) (str : List (BitVec 8)) (reverse : Bool) : List Report :=
  let s := dataStart8 str
  if reverse then revL utf8Ops raw isBoundary8 4 s (str.drop s).reverse utf8Ops.init []
  else fwdL utf8Ops raw (str.drop s) utf8Ops.init s []

theorem dataStart8_le (str : List (BitVec 8)) : dataStart8 str ≤ str.length := by
  unfold dataStart8 hasBom8
  split <;> simp_all
  split at * <;> simp_all

theorem utfDecode8_eq (raw : BitVec 8 → BitVec 32) (str : List (BitVec 8)) (reverse : Bool) (cb : Callback) :
    utfDecode8 raw str reverse cb = some (runLog cb {} (trace8 raw str reverse)).reports := by
  unfold utfDecode8
  split
  · next h =>
    have : str = [] := by simpa using h
    subst this
    cases reverse <;> rfl
  · have hs := dataStart8_le str
    have hsplit : str = str.take (dataStart8 str) ++ str.drop (dataStart8 str) := by simp
    have hl : (str.take (dataStart8 str)).length = dataStart8 str := by simp; omega
    have hl2 : (str.drop (dataStart8 str)).length = str.length - dataStart8 str := by simp
    simp only [trace8]
    change Option.map Log.reports (if reverse = true then
      revLoop utf8Ops raw (fun i => str[i]?) cb isBoundary8 4 (dataStart8 str) (str.length - dataStart8 str) utf8Ops.init 0 {}
      else fwdLoop utf8Ops raw (fun i => str[i]?) cb (str.length - dataStart8 str) (dataStart8 str) utf8Ops.init (dataStart8 str) 0 {}) = _
    split
    · have := revLoop_eq utf8Ops raw isBoundary8 4 cb str (str.take (dataStart8 str)) (str.drop (dataStart8 str)) [] []
        (by simp) utf8Ops.init {}
      rw [hl, hl2] at this
      rw [List.length_nil] at this
      rw [this]; rfl
    · have := fwdLoop_eq utf8Ops raw cb str (str.take (dataStart8 str)) [] (str.drop (dataStart8 str))
        (by simp) utf8Ops.init {}
      rw [hl, hl2] at this
      rw [List.length_nil, Nat.add_zero] at this
      rw [this]; rfl

theorem utfDecode8_always (raw : BitVec 8 → BitVec 32) (str : List (BitVec 8)) (reverse : Bool) :
    utfDecode8 raw str reverse always = some (trace8 raw str reverse) := by
  rw [utfDecode8_eq, runLog_true {} rfl]; rfl

end Verif.Proofs
