import Verif.Model.Macros
import Verif.Model.EachAttribute
import Mathlib.Tactic.Common
import Mathlib.Tactic.SplitIfs

/-!
# C176: macros over lists of arguments, lists of attributes of functions, version numbers
-/

namespace Verif.Props.Macros

open Verif.Model.Macros Verif.Model.EachAttribute Verif.Spec.FunctionAttributes

variable {Arg : Type}

private theorem impl_all (empty : Arg) : ∀ (l : List Arg) (x : Arg),
    impl empty l.length (x :: l) = some (x :: l)
  | [], _ => rfl
  | y :: l, x => by
      show (impl empty l.length (passed empty (y :: l))).map (x :: ·) = _
      rw [show passed empty (y :: l) = y :: l from rfl, impl_all empty l y]; rfl

private theorem names_get (i : ℕ) (h : i < 125) : (names : List (Item Arg))[i]? = some (.impl (124 - i)) := by
  have e : (List.range 125).reverse[i]? = some (124 - i) := by
    rw [List.getElem?_reverse (by simpa using h), List.length_range,
      List.getElem?_range (by omega)]
  rw [names, List.getElem?_map, e]; rfl

/-- C176.  `MUU_FOR_EACH(fn, args...)` applies `fn` once to each of up to 125 arguments, in order. -/
theorem C176_for_each (empty : Arg) (args : List Arg) (h1 : args ≠ []) (h2 : args.length ≤ 125) :
    forEach empty args = some args := by
  match args, h1 with
  | x :: l, _ =>
    have hl : l.length ≤ 124 := by simpa using h2
    have s : select ((passed empty (x :: l)).map .arg ++ names) = some (Item.impl l.length) := by
      show ((x :: l).map Item.arg ++ names)[125]? = _
      rw [List.getElem?_append_right (by simp; omega), List.length_map, List.length_cons,
        names_get _ (by omega)]
      congr 2; omega
    simp only [forEach, s]
    exact impl_all empty l x

example : forEach "" ["a", "b", "c"] = some ["a", "b", "c"] := by decide +kernel
example : forEach 0 (List.range 125) = some (List.range 125) := by decide +kernel

/-- C176.  Without arguments, `fn` is applied once to an empty argument. -/
theorem C176_for_each_empty (empty : Arg) : forEach empty [] = some [empty] := by
  have s : select ((passed empty ([] : List Arg)).map .arg ++ names) = some (Item.impl 0) := rfl
  simp only [forEach, s]; rfl

/-- C176.  With more than 125 arguments there is no expansion over part of them. -/
theorem C176_for_each_many (empty : Arg) (args : List Arg) (h : 125 < args.length) :
    forEach empty args = none := by
  have p : passed empty args = args := by cases args with
    | nil => simp at h
    | cons => rfl
  have s : select ((passed empty args).map .arg ++ names) = some (Item.arg args[125]) := by
    rw [p]
    show (args.map Item.arg ++ names)[125]? = _
    rw [List.getElem?_append_left (by simpa using h), List.getElem?_map, List.getElem?_eq_getElem h]; rfl
  simp only [forEach, s]

example : forEach 0 (List.range 126) = none := C176_for_each_many 0 _ (by simp)

/-- C176.  `MUU_COUNT_VA_ARGS(args...)` is the number of arguments, for up to 124 of them. -/
theorem C176_count_partial (empty : Arg) (args : List Arg) (h1 : args ≠ []) (h2 : args.length ≤ 124) :
    count empty args = some (.number args.length) := by
  have p : passed empty args = args := by cases args with
    | nil => exact absurd rfl h1
    | cons => rfl
  have hp : 0 < args.length := List.length_pos_iff.mpr h1
  have e : (List.range 125).reverse[124 - args.length]? = some args.length := by
    rw [List.getElem?_reverse (by simp; omega), List.length_range, List.getElem?_range (by omega)]
    congr 1; omega
  rw [count, p, List.getElem?_append_right (by simpa using h2), List.length_map, List.getElem?_map, e]
  rfl

example : count "" ["a", "b"] = some (.number 2) := C176_count_partial _ _ (by simp) (by simp)

/-- C176.  It is not the number of arguments for none of them (1), nor for 125 or more: it is then the text
of the 125th argument, whatever that is — although `MUU_FOR_EACH` accepts 125. -/
theorem C176_count_violated (empty : Arg) :
    count empty [] = some (.number 1) ∧
    ∀ (args : List Arg) (h : 124 < args.length), count empty args = some (.arg args[124]) := by
  refine ⟨rfl, fun args h => ?_⟩
  have p : passed empty args = args := by cases args with
    | nil => simp at h
    | cons => rfl
  rw [count, p, List.getElem?_append_left (by simpa using h), List.getElem?_map,
    List.getElem?_eq_getElem h]; rfl

private def allConventions : List Convention :=
  [.unspecified, .cdecl, .vectorcall, .stdcall, .fastcall, .thiscall]

private def allAttributes : List Attributes :=
  allConventions.flatMap fun c => [false, true].flatMap fun k => [false, true].flatMap fun v =>
    [Ref.none, .lvalue, .rvalue].flatMap fun r => [false, true].map fun n => ⟨c, ⟨k, v⟩, r, n⟩

private theorem all_mem (a : Attributes) : a ∈ allAttributes := by
  obtain ⟨c, ⟨k, v⟩, r, n⟩ := a
  cases c <;> cases k <;> cases v <;> cases r <;> cases n <;> decide +kernel

private theorem once_of {l : List Attributes} {ok : Attributes → Prop} (p : Attributes → Bool)
    (hp : ∀ a, p a = true ↔ ok a)
    (h : (decide l.Nodup && allAttributes.all fun a => (decide (a ∈ l)) == p a) = true) : ExactlyOnce l ok := by
  rw [Bool.and_eq_true, decide_eq_true_eq, List.all_eq_true] at h
  refine ⟨h.1, fun a => ?_⟩
  have := h.2 a (all_mem a)
  rw [beq_iff_eq] at this
  rw [← hp a, ← this, decide_eq_true_eq]

private instance (p c) : Decidable (Free p c) := by cases p <;> unfold Free <;> infer_instance
private instance (p c) : Decidable (Member p c) := by cases p <;> unfold Member <;> infer_instance

local macro "each" : tactic => `(tactic|
  exact once_of (fun a => decide _) (fun a => decide_eq_true_iff) (by decide +kernel))

/-- C176.  The lists without calling conventions have each combination of the attributes they are named after
exactly once, the other attributes being absent. -/
theorem C176_attributes :
    ExactlyOnce eachCv (fun a => a.convention = .unspecified ∧ a.ref = .none ∧ a.noexcept = false) ∧
    ExactlyOnce eachRef
      (fun a => a.convention = .unspecified ∧ a.cv = ⟨false, false⟩ ∧ a.noexcept = false) ∧
    ExactlyOnce eachCvRef (fun a => a.convention = .unspecified ∧ a.noexcept = false) ∧
    ExactlyOnce eachNoexcept
      (fun a => a.convention = .unspecified ∧ a.cv = ⟨false, false⟩ ∧ a.ref = .none) ∧
    ExactlyOnce eachCvNoexcept (fun a => a.convention = .unspecified ∧ a.ref = .none) ∧
    ExactlyOnce eachRefNoexcept (fun a => a.convention = .unspecified ∧ a.cv = ⟨false, false⟩) ∧
    ExactlyOnce eachCvRefNoexcept (fun a => a.convention = .unspecified) :=
  ⟨by each, by each, by each, by each, by each, by each, by each⟩

/-- C176.  The lists for functions which are not members have each calling convention of the platform, with and
without `noexcept`, exactly once. -/
theorem C176_free (p : Platform) :
    ExactlyOnce (eachCallConv p)
      (fun a => Free p a.convention ∧ a.cv = ⟨false, false⟩ ∧ a.ref = .none ∧ a.noexcept = false) ∧
    ExactlyOnce (eachCallConvNoexcept p)
      (fun a => Free p a.convention ∧ a.cv = ⟨false, false⟩ ∧ a.ref = .none) := by
  cases p
  all_goals exact ⟨by each, by each⟩

/-- C176.  The lists for member functions have each combination of the calling conventions of the platform and
the attributes they are named after exactly once. -/
theorem C176_member (p : Platform) :
    ExactlyOnce (memberCallConv p)
      (fun a => Member p a.convention ∧ a.cv = ⟨false, false⟩ ∧ a.ref = .none ∧ a.noexcept = false) ∧
    ExactlyOnce (memberCallConvCv p)
      (fun a => Member p a.convention ∧ a.ref = .none ∧ a.noexcept = false) ∧
    ExactlyOnce (memberCallConvRef p)
      (fun a => Member p a.convention ∧ a.cv = ⟨false, false⟩ ∧ a.noexcept = false) ∧
    ExactlyOnce (memberCallConvCvRef p) (fun a => Member p a.convention ∧ a.noexcept = false) ∧
    ExactlyOnce (memberCallConvNoexcept p)
      (fun a => Member p a.convention ∧ a.cv = ⟨false, false⟩ ∧ a.ref = .none) ∧
    ExactlyOnce (memberCallConvCvNoexcept p) (fun a => Member p a.convention ∧ a.ref = .none) ∧
    ExactlyOnce (memberCallConvRefNoexcept p) (fun a => Member p a.convention ∧ a.cv = ⟨false, false⟩) ∧
    ExactlyOnce (memberCallConvCvRefNoexcept p) (fun a => Member p a.convention) := by
  cases p
  all_goals exact ⟨by each, by each, by each, by each, by each, by each, by each, by each⟩

example : (⟨.thiscall, ⟨true, false⟩, .rvalue, true⟩ : Attributes) ∈ memberCallConvCvRefNoexcept .win32 :=
  ((C176_member .win32).2.2.2.2.2.2.2.2 _).mpr (by simp [Member])

/-- C176.  `MUU_MAKE_VERSION` orders versions by major, then minor, then patch, and distinguishes them, if
minors and patches are below 100. -/
theorem C176_version (a b c a' b' c' : ℕ) (hb : b < 100) (hc : c < 100) (hb' : b' < 100) (hc' : c' < 100) :
    (version a b c = version a' b' c' ↔ a = a' ∧ b = b' ∧ c = c') ∧
    (version a b c < version a' b' c' ↔ a < a' ∨ (a = a' ∧ (b < b' ∨ (b = b' ∧ c < c')))) := by
  unfold version
  constructor <;> omega

example : version 0 8 99 < version 0 9 0 := ((C176_version 0 8 99 0 9 0 (by decide) (by decide) (by decide)
  (by decide)).2).mpr (by decide)

end Verif.Props.Macros
