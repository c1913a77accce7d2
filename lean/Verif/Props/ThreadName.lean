import Verif.Proofs.ThreadName
/-! # Names of threads -/
namespace Verif.Props.ThreadName
open Verif.Model.ThreadName Verif.Proofs.ThreadName

/-- C172, what is true: the description is the name if the name has at most 255 bytes, and the debugger is told the name if it has exactly 255. On other
systems nothing happens. Missing: all other names, see `C172_violated`. -/
theorem C172_name_partial (name : List UInt8) (hz : ∀ c ∈ name, c ≠ 0) :
    (name.length ≤ 255 → ∃ t, setThreadName .windows name = some t ∧ t.description = some name) ∧
    (name.length = 255 → ∃ t, setThreadName .windows name = some t ∧ t.debugger = some name) ∧
    setThreadName .other name = none := by
  refine ⟨fun h => ⟨_, rfl, ?_⟩, fun h => ⟨_, rfl, ?_⟩, rfl⟩
  · simp only [windows, buffer name hz (by omega)]
    have hlen : name.length ≤ ((name.map some ++ List.replicate (256 - name.length) none).set 255 (some 0)).length := by simp
    simp only [readBytes, hlen, if_true]
    rw [List.take_set_of_le h, List.take_left' (by simp)]
    have : ∀ l : List UInt8, (l.map some).mapM id = some l := by
      intro l
      induction l with
      | nil => rfl
      | cons c l ih => rw [List.map_cons, List.mapM_cons, ih]; rfl
    exact this name
  · simp only [windows, buffer name hz (by omega)]
    have : (name.map some ++ List.replicate (256 - name.length) none).set 255 (some 0) = name.map some ++ [some (0 : UInt8)] := by
      rw [List.set_append_right _ _ (by simp [h])]
      simp [h]
    rw [this, readString_prefix _ _ hz]
    simp [readString]

/-- A name that meets the hypotheses, with what both are told. -/
example : (∀ c ∈ List.replicate 255 (65 : UInt8), c ≠ 0) ∧ (List.replicate 255 (65 : UInt8)).length = 255 := by
  refine ⟨fun c hc => ?_, List.length_replicate⟩
  rw [(List.mem_replicate.1 hc).2]
  decide

/-- C172 is violated, for almost every name: if the name has fewer than 255 bytes, no zero byte follows it in the buffer, and the debugger reads bytes that
were never written; if it has 256, the last byte is lost; if it has more, the description is read from beyond the buffer. -/
theorem C172_violated (name : List UInt8) (hz : ∀ c ∈ name, c ≠ 0) :
    (name.length < 255 → ∃ t, setThreadName .windows name = some t ∧ t.debugger = none) ∧
    (name.length = 256 → ∃ t, setThreadName .windows name = some t ∧ t.description ≠ some name) ∧
    (256 < name.length → ∃ t, setThreadName .windows name = some t ∧ t.description = none) := by
  refine ⟨fun h => ⟨_, rfl, ?_⟩, fun h => ⟨_, rfl, ?_⟩, fun h => ⟨_, rfl, ?_⟩⟩
  · simp only [windows, buffer name hz (by omega)]
    obtain ⟨k, hk⟩ : ∃ k, 256 - name.length = (k + 1) + 1 := ⟨254 - name.length, by omega⟩
    have : (name.map some ++ List.replicate (256 - name.length) none).set 255 (some 0) =
        name.map some ++ (List.replicate (256 - name.length) none).set (255 - name.length) (some (0 : UInt8)) := by
      rw [List.set_append_right _ _ (by simp; omega)]
      simp
    rw [this, readString_prefix _ _ hz, hk, show 255 - name.length = k + 1 by omega]
    simp [List.replicate_succ, readString]
  · intro e
    simp only [windows, buffer name hz (by omega)] at e
    rw [h] at e
    simp only [Nat.sub_self, List.replicate_zero, List.append_nil] at e
    have hlen : 256 ≤ ((name.map some).set 255 (some (0 : UInt8))).length := by simp [h]
    simp only [readBytes, hlen, if_true] at e
    rw [List.take_of_length_le (by simp [h])] at e
    have set_map : (name.map some).set 255 (some (0 : UInt8)) = (name.set 255 0).map some := by rw [List.map_set]
    have all : ∀ l : List UInt8, (l.map some).mapM id = some l := by
      intro l
      induction l with
      | nil => rfl
      | cons c l ih => rw [List.map_cons, List.mapM_cons, ih]; rfl
    rw [set_map, all] at e
    injection e with e
    have : (0 : UInt8) ∈ name := by
      rw [← e]
      exact List.mem_set (by rw [h]; decide) 0
    exact hz 0 this rfl
  · have hlen : ¬ name.length ≤ ((strncpy (List.replicate 256 none) name (min name.length 256)).set 255 (some 0)).length := by
      have : ((name.take 256).takeWhile (· ≠ 0)).length ≤ 256 :=
        Nat.le_trans (List.takeWhile_sublist _).length_le (by rw [List.length_take]; exact Nat.min_le_left _ _)
      simp only [strncpy, List.length_set, List.length_append, List.length_map, List.length_replicate, List.length_drop,
        Nat.min_eq_right (Nat.le_of_lt h)]
      omega
    simp only [windows, readBytes, hlen, if_false]

/-- The name "worker". -/
example : (∀ c ∈ [119, 111, 114, 107, 101, 114], c ≠ (0 : UInt8)) ∧ windows [119, 111, 114, 107, 101, 114] = ⟨none, some [119, 111, 114, 107, 101, 114]⟩ := by
  decide +kernel

end Verif.Props.ThreadName
