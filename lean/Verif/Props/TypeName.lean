import Verif.Proofs.TypeName

/-! # C140: names of types -/

namespace Verif.Props.TypeName

open Verif.Spec.CInt Verif.Spec.TypeName Verif.Model.TypeName Verif.Proofs.TypeName

/-- Where a type may be used: pointed to, referred to or an element of an array; the result of a function; anywhere. -/
inductive Place where
  | operand | result | anywhere

/-- The types whose names are right: classes, arithmetic types and instances of templates whose arguments are no instances, with
arguments that are not zero; pointers to these, references to these, arrays of these and references to such arrays; functions whose
results are such types or references to them, and pointers and references to these functions, without parameters before an ellipsis.
`args` is the compiler's text of the arguments of a template. -/
inductive Plain (args : List CType → List (Ty × ℤ) → List Char) : Place → CType → Prop where
  | named (cv n) : Plain args .operand (.named cv n)
  | inst (cv n types values) (ht : ∀ t ∈ types, Plain args .anywhere t)
      (hv : ∀ v ∈ values, 0 < v.1.bits ∧ v.1.Has v.2 ∧ v.2 ≠ 0 ∧ (v.2 < 0 → v.1.Has (-v.2)))
      (hl : values = [] ∨ types.length ≤ 3) (ha : '<' ∉ args types values) : Plain args .operand (.inst cv n types values)
  | ptr (cv t) (h : Plain args .operand t) : Plain args .operand (.ptr cv t)
  | operand (t) (h : Plain args .operand t) : Plain args .result t
  | lref (t) (h : Plain args .operand t) : Plain args .result (.lref t)
  | rref (t) (h : Plain args .operand t) : Plain args .result (.rref t)
  | result (t) (h : Plain args .result t) : Plain args .anywhere t
  | array (n t) (hn : ∀ k, n = some k → 0 < k ∧ k < 2 ^ 64) (h : Plain args .operand t) : Plain args .anywhere (.array n t)
  | lrefArray (n t) (hn : ∀ k, n = some k → 0 < k ∧ k < 2 ^ 64) (h : Plain args .operand t) : Plain args .anywhere (.lref (.array n t))
  | rrefArray (n t) (hn : ∀ k, n = some k → 0 < k ∧ k < 2 ^ 64) (h : Plain args .operand t) : Plain args .anywhere (.rref (.array n t))
  | fn (r ps va ne) (hr : Plain args .result r) (hp : ∀ p ∈ ps, Plain args .anywhere p) : Plain args .anywhere (.fn r ps va ne)
  | ptrFn (cv r ps va ne) (hr : Plain args .result r) (hp : ∀ p ∈ ps, Plain args .anywhere p) (hva : va = true → ps = []) :
      Plain args .anywhere (.ptr cv (.fn r ps va ne))
  | lrefFn (r ps va ne) (hr : Plain args .result r) (hp : ∀ p ∈ ps, Plain args .anywhere p) (hva : va = true → ps = []) :
      Plain args .anywhere (.lref (.fn r ps va ne))

/-- What is proved by induction: the name is the spelling, and what may be the result of a function is written before it. -/
def Right (args : List CType → List (Ty × ℤ) → List Char) (p : Place) (t : CType) : Prop :=
  (∃ n, name args t = some n ∧ lex n = spelling t) ∧ (p ≠ .anywhere → ∀ d, declare t d = spelling t ++ d)

theorem names_right (args : List CType → List (Ty × ℤ) → List Char) (ts : List CType) (h : ∀ t ∈ ts, Right args .anywhere t) :
    ∃ ns, names args ts = some ns ∧ ns.map lex = spellings ts := by
  induction ts with
  | nil => exact ⟨[], by simp [names], by simp [spellings]⟩
  | cons t ts ih =>
    obtain ⟨⟨n, h1, h2⟩, _⟩ := h t (by simp)
    obtain ⟨ns, h3, h4⟩ := ih (fun u hu => h u (by simp [hu]))
    exact ⟨n :: ns, by simp [names, h1, h3], by simp [spellings, h2, h4, spelling]⟩

theorem operand_cases {args : List CType → List (Ty × ℤ) → List Char} {t : CType} (h : Plain args .operand t) :
    (∃ cv n, t = .named cv n) ∨ (∃ cv n ts vs, t = .inst cv n ts vs) ∨ (∃ cv u, t = .ptr cv u ∧ Plain args .operand u) := by
  cases h with
  | named cv n => exact Or.inl ⟨cv, n, rfl⟩
  | inst cv n ts vs => exact Or.inr (Or.inl ⟨cv, n, ts, vs, rfl⟩)
  | ptr cv t h => exact Or.inr (Or.inr ⟨cv, t, rfl, h⟩)

theorem plain_right {args : List CType → List (Ty × ℤ) → List Char} {p : Place} {t : CType} (h : Plain args p t) : Right args p t := by
  induction h with
  | named cv n =>
    refine ⟨⟨qualifiers cv ++ n, by simp [name], ?_⟩, fun _ d => ?_⟩
    · rw [lex_qualifiers]; simp [spelling, declare]
    · simp [spelling, declare]
  | inst cv n types values ht hv hl ha ih =>
    obtain ⟨ns, h1, h2⟩ := names_right args types ih
    have h3 := valueNames_eq values hv
    have hlen : ns.length = types.length := by
      have := congrArg List.length h2
      have e : (spellings types).length = types.length := by
        clear * -
        induction types with
        | nil => simp [spellings]
        | cons t ts ih => simp [spellings, ih]
      simpa [e] using this
    refine ⟨⟨qualifiers cv ++ instName n (args types values) ns (values.map fun v => decimal v.2), by simp [name, h1, h3], ?_⟩, fun _ d => ?_⟩
    · rw [lex_qualifiers, lex_inst n _ ha ns _ (by simpa [hlen] using hl), h2]
      simp [spelling, declare, Function.comp_def, lex_decimal]
    · simp [spelling, declare]
  | ptr cv t h ih =>
    obtain ⟨⟨n, h1, h2⟩, h3⟩ := ih
    have h3 := h3 (by simp)
    have hop : ∀ d, operand t d = d := by
      intro d
      rcases operand_cases h with ⟨cv, n, rfl⟩ | ⟨cv, n, ts, vs, rfl⟩ | ⟨cv, u, rfl, _⟩ <;> rfl
    have hn : name args (.ptr cv t) = some (n ++ pointerSuffix cv) := by
      rcases operand_cases h with ⟨cv', n', rfl⟩ | ⟨cv', n', ts, vs, rfl⟩ | ⟨cv', u, rfl, _⟩ <;>
      · simp only [name.eq_def args (.ptr cv _), h1]
        rfl
    refine ⟨⟨_, hn, ?_⟩, fun _ d => ?_⟩
    · rw [lex_pointer, h2]
      simp only [spelling, declare, hop]
      rw [h3]
      simp [spelling]
      exact (h3 _).symm
    · simp only [spelling, declare, hop]
      rw [h3, h3]
      simp
  | operand t h ih => exact ⟨ih.1, fun _ => ih.2 (by simp)⟩
  | lref t h ih =>
    obtain ⟨⟨n, h1, h2⟩, h3⟩ := ih
    have h3 := h3 (by simp)
    have hop : ∀ d, operand t d = d := by
      intro d
      rcases operand_cases h with ⟨cv, n, rfl⟩ | ⟨cv, n, ts, vs, rfl⟩ | ⟨cv, u, rfl, _⟩ <;> rfl
    have hn : name args (.lref t) = some (n ++ chars! "&") := by
      rcases operand_cases h with ⟨cv', n', rfl⟩ | ⟨cv', n', ts, vs, rfl⟩ | ⟨cv', u, rfl, _⟩ <;>
      · simp only [name.eq_def args (.lref _), h1]
        rfl
    refine ⟨⟨_, hn, ?_⟩, fun _ d => ?_⟩
    · rw [lex_at_sym n [] '&' (by decide), h2]
      simp only [spelling, declare, hop]
      rw [h3]
      simp [spelling, lex_nil]
      exact (h3 _).symm
    · simp only [spelling, declare, hop]
      rw [h3, h3]
      simp
  | rref t h ih =>
    obtain ⟨⟨n, h1, h2⟩, h3⟩ := ih
    have h3 := h3 (by simp)
    have hop : ∀ d, operand t d = d := by
      intro d
      rcases operand_cases h with ⟨cv, n, rfl⟩ | ⟨cv, n, ts, vs, rfl⟩ | ⟨cv, u, rfl, _⟩ <;> rfl
    have hn : name args (.rref t) = some (n ++ chars! "&&") := by
      rcases operand_cases h with ⟨cv', n', rfl⟩ | ⟨cv', n', ts, vs, rfl⟩ | ⟨cv', u, rfl, _⟩ <;>
      · simp only [name.eq_def args (.rref _), h1]
        rfl
    refine ⟨⟨_, hn, ?_⟩, fun _ d => ?_⟩
    · rw [lex_at_sym n _ '&' (by decide), lex_sym '&' (by decide), h2]
      simp only [spelling, declare, hop]
      rw [h3]
      simp [spelling, lex_nil]
      exact (h3 _).symm
    · simp only [spelling, declare, hop]
      rw [h3, h3]
      simp
  | result t h ih => exact ⟨ih.1, fun h => absurd rfl h⟩
  | array n t hn h ih =>
    obtain ⟨⟨m, h1, h2⟩, h3⟩ := ih
    have h3 := h3 (by simp)
    obtain ⟨e, he, hl⟩ := lex_extent n hn
    refine ⟨⟨m ++ e, by simp [name, h1, he], ?_⟩, fun h => absurd rfl h⟩
    rw [hl, h2]
    simp only [spelling, declare]
    rw [h3]
    simp [spelling]
    exact (h3 _).symm
  | lrefArray n t hn h ih =>
    obtain ⟨⟨m, h1, h2⟩, h3⟩ := ih
    have h3 := h3 (by simp)
    obtain ⟨e, he, hl⟩ := lex_extent n hn
    refine ⟨⟨m ++ chars! "(&)" ++ e, by simp [name, h1, he], ?_⟩, fun h => absurd rfl h⟩
    rw [hl, lex_at_sym m _ '(' (by decide), lex_sym '&' (by decide), lex_sym ')' (by decide), h2]
    simp only [spelling, declare, operand]
    rw [h3]
    simp [spelling, lex_nil]
    exact (h3 _).symm
  | rrefArray n t hn h ih =>
    obtain ⟨⟨m, h1, h2⟩, h3⟩ := ih
    have h3 := h3 (by simp)
    obtain ⟨e, he, hl⟩ := lex_extent n hn
    refine ⟨⟨m ++ chars! "(&&)" ++ e, by simp [name, h1, he], ?_⟩, fun h => absurd rfl h⟩
    rw [hl, lex_at_sym m _ '(' (by decide), lex_sym '&' (by decide), lex_sym '&' (by decide), lex_sym ')' (by decide), h2]
    simp only [spelling, declare, operand]
    rw [h3]
    simp [spelling, lex_nil]
    exact (h3 _).symm
  | fn r ps va ne hr hp ihr ihp =>
    obtain ⟨⟨m, h1, h2⟩, h3⟩ := ihr
    have h3 := h3 (by simp)
    obtain ⟨ns, h4, h5⟩ := names_right args ps ihp
    refine ⟨⟨functionName m ns va ne, by simp [name, h1, h4], ?_⟩, fun h => absurd rfl h⟩
    rw [lex_function, h2, h5]
    simp only [spelling, declare]
    rw [h3]
    simp [spelling, tailTokens]
    exact (h3 _).symm
  | ptrFn cv r ps va ne hr hp hva ihr ihp =>
    obtain ⟨⟨m, h1, h2⟩, h3⟩ := ihr
    have h3 := h3 (by simp)
    obtain ⟨ns, h4, h5⟩ := names_right args ps ihp
    refine ⟨⟨functionIndirect (functionPointer cv) m ns va ne, by simp [name, h1, h4], ?_⟩, fun h => absurd rfl h⟩
    rw [lex_indirect _ _ (lex_functionPointer cv) m ns va ne (fun h => by
      have := hva h
      subst this
      simpa [names] using h4.symm), h2, h5]
    simp only [spelling, declare, operand]
    rw [h3]
    simp [spelling, tailTokens]
    exact (h3 _).symm
  | lrefFn r ps va ne hr hp hva ihr ihp =>
    obtain ⟨⟨m, h1, h2⟩, h3⟩ := ihr
    have h3 := h3 (by simp)
    obtain ⟨ns, h4, h5⟩ := names_right args ps ihp
    refine ⟨⟨functionIndirect (chars! "(&)(") m ns va ne, by simp [name, h1, h4], ?_⟩, fun h => absurd rfl h⟩
    rw [lex_indirect _ _ lex_functionReference m ns va ne (fun h => by
      have := hva h
      subst this
      simpa [names] using h4.symm), h2, h5]
    simp only [spelling, declare, operand]
    rw [h3]
    simp [spelling, tailTokens]
    exact (h3 _).symm

/-- The name of a type is how the type is written in C++, up to blanks; for the types listed in `Plain`. -/
theorem C140_names_partial (args : List CType → List (Ty × ℤ) → List Char) (t : CType) (h : Plain args .anywhere t) :
    ∃ n, name args t = some n ∧ lex n = spelling t :=
  (plain_right h).1

/-- `const int`. -/
abbrev constInt : CType := .named ⟨true, false⟩ chars! "int"

/-- `int`. -/
abbrev int : CType := .named .no chars! "int"

-- `const int* volatile(*const)(muu::vector<float, 3>&, char(&)[5]) noexcept`
example : name (fun _ _ => chars! "float, 3") (.ptr ⟨true, false⟩ (.fn (.ptr ⟨false, true⟩ constInt)
      [.lref (.inst .no chars! "muu::vector" [.named .no chars! "float"] [(⟨64, false⟩, 3)]), .lref (.array (some 5) (.named .no chars! "char"))]
      false true)) =
    some chars! "const int* volatile(*const)(muu::vector<float, 3>&, char(&)[5]) noexcept" := by
  decide +kernel

example : Plain (fun _ _ => chars! "float, 3") .anywhere (.ptr ⟨true, false⟩ (.fn (.ptr ⟨false, true⟩ constInt)
      [.lref (.inst .no chars! "muu::vector" [.named .no chars! "float"] [(⟨64, false⟩, 3)]), .lref (.array (some 5) (.named .no chars! "char"))]
      false true)) := by
  refine .ptrFn _ _ _ _ _ (.operand _ (.ptr _ _ (.named _ _))) ?_ (by simp)
  intro p hp
  simp only [List.mem_cons, List.not_mem_nil, or_false] at hp
  rcases hp with rfl | rfl
  · refine .result _ (.lref _ (.inst _ _ _ _ ?_ ?_ (by simp) (by decide)))
    · intro t ht
      simp at ht
      subst ht
      exact .result _ (.operand _ (.named _ _))
    · decide
  · exact .lrefArray _ _ (by rintro k ⟨⟩; decide) (.named _ _)

/-- The text of the compiler, with any prefixes, becomes the name: of `signature [with T = name]` (GCC) or `signature [T = name]` (Clang),
optionally with the meaning of one alias after a semicolon, this is `name`. -/
theorem C140_source (signature x alias' : List Char) (ps : List (List Char)) (hs : '[' ∉ signature) (hps : ∀ p ∈ ps, p ∈ decorations)
    (hx : ∀ p ∈ decorations, ¬ p <+: x) (hx2 : ';' ∉ x) (ha : alias' = [] ∨ ∃ a, alias' = ';' :: a ∧ ';' ∉ a) :
    sourceString (signature ++ '[' :: (ps.flatten ++ x ++ alias' ++ chars! "]")) = x := by
  have same : ∀ p, p ∈ prefixes ↔ p ∈ decorations := by
    have h1 : ∀ p ∈ prefixes, p ∈ decorations := by decide
    have h2 : ∀ p ∈ decorations, p ∈ prefixes := by decide
    exact fun p => ⟨h1 p, h2 p⟩
  simp only [← same] at hps hx
  have hp2 : ';' ∉ ps.flatten := by
    intro hc
    obtain ⟨p, hp, hc⟩ := List.mem_flatten.1 hc
    have : ∀ p ∈ prefixes, ';' ∉ p := by decide
    exact this p (hps p hp) hc
  have h1 : trimRightFromLast (ps.flatten ++ x ++ alias') ';' = ps.flatten ++ x := by
    rcases ha with rfl | ⟨a, rfl, ha⟩
    · rw [List.append_nil]
      apply trimRight_none
      simp only [List.mem_append, not_or]
      exact ⟨hp2, hx2⟩
    · exact trimRight_last _ _ _ ha
  unfold sourceString
  simp only []
  rw [trimLeft_first _ _ _ hs, trimRight_last _ [] ']' (by simp), h1]
  apply removePrefixes_eq x hx _ _ hps
  have := flatten_length ps hps
  simp only [List.length_append]
  omega

example : sourceString chars! "consteval auto muu::impl::type_name_source_string() [with T = {anonymous}::foo; std::string_view = std::basic_string_view<char>]" =
    chars! "foo" ∧ sourceString chars! "auto muu::impl::type_name_source_string() [T = int[5]]" = chars! "int[5]" := by
  decide +kernel

/-- An integer in a name is in decimal, unless it is zero or the least number of its type. -/
theorem C140_integers_partial (t : Ty) (ht : 0 < t.bits) (n : ℤ) (h : t.Has n) (h0 : n ≠ 0) (hneg : n < 0 → t.Has (-n)) :
    intToStr t n = some (decimal n) :=
  intToStr_eq t ht n h h0 hneg

example : intToStr ⟨32, true⟩ (-1024) = some chars! "-1024" ∧ intToStr ⟨8, false⟩ 255 = some chars! "255" := by decide +kernel

/-- Zero is a null character, so that `std::array<int, 0>` does not have its name; the least signed char has no digits. -/
theorem C140_zero_violated :
    intToStr ⟨64, false⟩ 0 = some [Char.ofNat 0] ∧
    name (fun _ _ => chars! "int, 0") (.inst .no chars! "std::array" [int] [(⟨64, false⟩, 0)]) =
      some (chars! "std::array<int, " ++ [Char.ofNat 0] ++ chars! ">") ∧
    intToStr ⟨8, true⟩ (-128) = some chars! "-/.(" := by
  decide +kernel

/-- The name of an instance of a template with an instance as argument repeats a part of the argument: `a<b<int>>` is `a<b<b<int>>`. -/
theorem C140_nested_violated (n m : List Char) (args : List CType → List (Ty × ℤ) → List Char) (h1 : args [int] [] = chars! "int")
    (h2 : args [.inst .no m [int] []] [] = m ++ chars! "<int>") :
    name args (.inst .no n [.inst .no m [int] []] []) = some (n ++ chars! "<" ++ m ++ chars! "<" ++ m ++ chars! "<int>>") := by
  have e1 : trimRightFromLast (m ++ chars! "<" ++ chars! "int" ++ chars! ">") '<' = m := by
    rw [List.append_assoc, List.append_assoc]
    exact trimRight_last m _ '<' (by decide)
  have e2 : trimRightFromLast (n ++ chars! "<" ++ (m ++ chars! "<int>") ++ chars! ">") '<' = n ++ chars! "<" ++ m := by
    have := trimRight_last (n ++ chars! "<" ++ m) chars! "int>>" '<' (by decide)
    rw [← this]
    simp
  have e3 : qualifiers .no = [] := rfl
  simp only [name, names, valueNames, Option.bind_eq_bind, Option.bind_some, instName, h1, h2, e1, e2, list, e3]
  simp

example : name (fun ts _ => if ts.length = 1 then (match ts with | [.named _ _] => chars! "int" | _ => chars! "b<int>") else [])
    (.inst .no chars! "a" [.inst .no chars! "b" [int] []] []) = some chars! "a<b<b<int>>" := by decide +kernel

/-- The name of an array of arrays is that of another type, `int[3][2]` instead of `int[2][3]`; a pointer to an array is `int[3]*` instead of
`int(*)[3]`, an array of pointers to functions `int(*)()[3]` instead of `int(*[3])()`. -/
theorem C140_arrays_violated (args : List CType → List (Ty × ℤ) → List Char) :
    name args (.array (some 2) (.array (some 3) int)) = some chars! "int[3][2]" ∧
    lex chars! "int[3][2]" ≠ spelling (.array (some 2) (.array (some 3) int)) ∧
    lex chars! "int[3][2]" = spelling (.array (some 3) (.array (some 2) int)) ∧
    name args (.ptr .no (.array (some 3) int)) = some chars! "int[3]*" ∧
    lex chars! "int[3]*" ≠ spelling (.ptr .no (.array (some 3) int)) ∧
    name args (.array (some 3) (.ptr .no (.fn int [] false false))) = some chars! "int(*)()[3]" ∧
    lex chars! "int(*)()[3]" ≠ spelling (.array (some 3) (.ptr .no (.fn int [] false false))) := by
  have e2 : extentName (some 2) = some chars! "[2]" := by decide +kernel
  have e3 : extentName (some 3) = some chars! "[3]" := by decide +kernel
  refine ⟨?_, by decide, by decide, ?_, by decide, ?_, by decide⟩
  · simp [name, e2, e3, qualifiers, CV.no]
  · simp [name, e3, qualifiers, CV.no, pointerSuffix]
  · simp [name, names, e3, qualifiers, CV.no, functionIndirect, functionPointer, list]

/-- The name of a pointer to a function with parameters and an ellipsis has a parenthesis too many: `int(*)((int, ...)`. -/
theorem C140_variadic_violated (args : List CType → List (Ty × ℤ) → List Char) :
    name args (.ptr .no (.fn int [int] true false)) = some chars! "int(*)((int, ...)" ∧
    lex chars! "int(*)((int, ...)" ≠ spelling (.ptr .no (.fn int [int] true false)) := by
  refine ⟨?_, by decide⟩
  simp [name, names, qualifiers, CV.no, functionIndirect, functionPointer, list]

end Verif.Props.TypeName
