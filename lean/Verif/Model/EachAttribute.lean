import Verif.Spec.FunctionAttributes

/-!
# The lists of attributes of functions of the preprocessor (`impl/preprocessor_for_each_attributes.h`)

The header defines macros which apply a macro `func` to each combination of calling convention,
`const`/`volatile`, reference qualifier and `noexcept`, once per line; `meta.h` and `function_view.h` use
these to define one specialisation for each kind of function.  The lists below are transcribed line by line.
A qualifier which the macro does not pass at all is recorded as absent, as `MUU_BLANK` is (it expands to
nothing).  `Platform` selects the branch of the conditional directives: `win64` (lines 126 and 180),
`win32` (lines 142 and 334) and `other` (lines 164 and 668).
-/

namespace Verif.Model.EachAttribute

open Verif.Spec.FunctionAttributes

/-- `MUU_FOR_EACH_CV`
(`include/muu/impl/preprocessor_for_each_attributes.h:39-43`): what `func` is applied to, in order. -/
def eachCv : List Attributes := [
  ⟨.unspecified, ⟨false, false⟩, .none, false⟩,
  ⟨.unspecified, ⟨true, false⟩, .none, false⟩,
  ⟨.unspecified, ⟨false, true⟩, .none, false⟩,
  ⟨.unspecified, ⟨true, true⟩, .none, false⟩]

/-- `MUU_FOR_EACH_REF`
(`include/muu/impl/preprocessor_for_each_attributes.h:47-50`): what `func` is applied to, in order. -/
def eachRef : List Attributes := [
  ⟨.unspecified, ⟨false, false⟩, .none, false⟩,
  ⟨.unspecified, ⟨false, false⟩, .lvalue, false⟩,
  ⟨.unspecified, ⟨false, false⟩, .rvalue, false⟩]

/-- `MUU_FOR_EACH_CVREF`
(`include/muu/impl/preprocessor_for_each_attributes.h:54-66`): what `func` is applied to, in order. -/
def eachCvRef : List Attributes := [
  ⟨.unspecified, ⟨false, false⟩, .none, false⟩,
  ⟨.unspecified, ⟨false, false⟩, .lvalue, false⟩,
  ⟨.unspecified, ⟨false, false⟩, .rvalue, false⟩,
  ⟨.unspecified, ⟨true, false⟩, .none, false⟩,
  ⟨.unspecified, ⟨true, false⟩, .lvalue, false⟩,
  ⟨.unspecified, ⟨true, false⟩, .rvalue, false⟩,
  ⟨.unspecified, ⟨false, true⟩, .none, false⟩,
  ⟨.unspecified, ⟨false, true⟩, .lvalue, false⟩,
  ⟨.unspecified, ⟨false, true⟩, .rvalue, false⟩,
  ⟨.unspecified, ⟨true, true⟩, .none, false⟩,
  ⟨.unspecified, ⟨true, true⟩, .lvalue, false⟩,
  ⟨.unspecified, ⟨true, true⟩, .rvalue, false⟩]

/-- `MUU_FOR_EACH_NOEXCEPT`
(`include/muu/impl/preprocessor_for_each_attributes.h:70-72`): what `func` is applied to, in order. -/
def eachNoexcept : List Attributes := [
  ⟨.unspecified, ⟨false, false⟩, .none, false⟩,
  ⟨.unspecified, ⟨false, false⟩, .none, true⟩]

/-- `MUU_FOR_EACH_CV_NOEXCEPT`
(`include/muu/impl/preprocessor_for_each_attributes.h:76-84`): what `func` is applied to, in order. -/
def eachCvNoexcept : List Attributes := [
  ⟨.unspecified, ⟨false, false⟩, .none, false⟩,
  ⟨.unspecified, ⟨false, false⟩, .none, true⟩,
  ⟨.unspecified, ⟨true, false⟩, .none, false⟩,
  ⟨.unspecified, ⟨true, false⟩, .none, true⟩,
  ⟨.unspecified, ⟨false, true⟩, .none, false⟩,
  ⟨.unspecified, ⟨false, true⟩, .none, true⟩,
  ⟨.unspecified, ⟨true, true⟩, .none, false⟩,
  ⟨.unspecified, ⟨true, true⟩, .none, true⟩]

/-- `MUU_FOR_EACH_REF_NOEXCEPT`
(`include/muu/impl/preprocessor_for_each_attributes.h:88-94`): what `func` is applied to, in order. -/
def eachRefNoexcept : List Attributes := [
  ⟨.unspecified, ⟨false, false⟩, .none, false⟩,
  ⟨.unspecified, ⟨false, false⟩, .none, true⟩,
  ⟨.unspecified, ⟨false, false⟩, .lvalue, false⟩,
  ⟨.unspecified, ⟨false, false⟩, .lvalue, true⟩,
  ⟨.unspecified, ⟨false, false⟩, .rvalue, false⟩,
  ⟨.unspecified, ⟨false, false⟩, .rvalue, true⟩]

/-- `MUU_FOR_EACH_CVREF_NOEXCEPT`
(`include/muu/impl/preprocessor_for_each_attributes.h:98-122`): what `func` is applied to, in order. -/
def eachCvRefNoexcept : List Attributes := [
  ⟨.unspecified, ⟨false, false⟩, .none, false⟩,
  ⟨.unspecified, ⟨false, false⟩, .none, true⟩,
  ⟨.unspecified, ⟨false, false⟩, .lvalue, false⟩,
  ⟨.unspecified, ⟨false, false⟩, .lvalue, true⟩,
  ⟨.unspecified, ⟨false, false⟩, .rvalue, false⟩,
  ⟨.unspecified, ⟨false, false⟩, .rvalue, true⟩,
  ⟨.unspecified, ⟨true, false⟩, .none, false⟩,
  ⟨.unspecified, ⟨true, false⟩, .none, true⟩,
  ⟨.unspecified, ⟨true, false⟩, .lvalue, false⟩,
  ⟨.unspecified, ⟨true, false⟩, .lvalue, true⟩,
  ⟨.unspecified, ⟨true, false⟩, .rvalue, false⟩,
  ⟨.unspecified, ⟨true, false⟩, .rvalue, true⟩,
  ⟨.unspecified, ⟨false, true⟩, .none, false⟩,
  ⟨.unspecified, ⟨false, true⟩, .none, true⟩,
  ⟨.unspecified, ⟨false, true⟩, .lvalue, false⟩,
  ⟨.unspecified, ⟨false, true⟩, .lvalue, true⟩,
  ⟨.unspecified, ⟨false, true⟩, .rvalue, false⟩,
  ⟨.unspecified, ⟨false, true⟩, .rvalue, true⟩,
  ⟨.unspecified, ⟨true, true⟩, .none, false⟩,
  ⟨.unspecified, ⟨true, true⟩, .none, true⟩,
  ⟨.unspecified, ⟨true, true⟩, .lvalue, false⟩,
  ⟨.unspecified, ⟨true, true⟩, .lvalue, true⟩,
  ⟨.unspecified, ⟨true, true⟩, .rvalue, false⟩,
  ⟨.unspecified, ⟨true, true⟩, .rvalue, true⟩]

/-- `MUU_FOR_EACH_CALLCONV`
(`include/muu/impl/preprocessor_for_each_attributes.h:129-131, 145-149, 167-168`): what `func` is applied to, in order,
on each of the platforms. -/
def eachCallConv : Platform → List Attributes
  | .win64 => [
    ⟨.cdecl, ⟨false, false⟩, .none, false⟩,
    ⟨.vectorcall, ⟨false, false⟩, .none, false⟩]
  | .win32 => [
    ⟨.cdecl, ⟨false, false⟩, .none, false⟩,
    ⟨.vectorcall, ⟨false, false⟩, .none, false⟩,
    ⟨.stdcall, ⟨false, false⟩, .none, false⟩,
    ⟨.fastcall, ⟨false, false⟩, .none, false⟩]
  | .other => [
    ⟨.unspecified, ⟨false, false⟩, .none, false⟩]

/-- `MUU_FOR_EACH_CALLCONV_NOEXCEPT`
(`include/muu/impl/preprocessor_for_each_attributes.h:135-139, 153-161, 172-174`): what `func` is applied to, in order,
on each of the platforms. -/
def eachCallConvNoexcept : Platform → List Attributes
  | .win64 => [
    ⟨.cdecl, ⟨false, false⟩, .none, false⟩,
    ⟨.cdecl, ⟨false, false⟩, .none, true⟩,
    ⟨.vectorcall, ⟨false, false⟩, .none, false⟩,
    ⟨.vectorcall, ⟨false, false⟩, .none, true⟩]
  | .win32 => [
    ⟨.cdecl, ⟨false, false⟩, .none, false⟩,
    ⟨.cdecl, ⟨false, false⟩, .none, true⟩,
    ⟨.vectorcall, ⟨false, false⟩, .none, false⟩,
    ⟨.vectorcall, ⟨false, false⟩, .none, true⟩,
    ⟨.stdcall, ⟨false, false⟩, .none, false⟩,
    ⟨.stdcall, ⟨false, false⟩, .none, true⟩,
    ⟨.fastcall, ⟨false, false⟩, .none, false⟩,
    ⟨.fastcall, ⟨false, false⟩, .none, true⟩]
  | .other => [
    ⟨.unspecified, ⟨false, false⟩, .none, false⟩,
    ⟨.unspecified, ⟨false, false⟩, .none, true⟩]

/-- `MUU_FOR_EACH_MEMBER_CALLCONV`
(`include/muu/impl/preprocessor_for_each_attributes.h:183-185, 337-342, 671-672`): what `func` is applied to, in order,
on each of the platforms. -/
def memberCallConv : Platform → List Attributes
  | .win64 => [
    ⟨.cdecl, ⟨false, false⟩, .none, false⟩,
    ⟨.vectorcall, ⟨false, false⟩, .none, false⟩]
  | .win32 => [
    ⟨.cdecl, ⟨false, false⟩, .none, false⟩,
    ⟨.vectorcall, ⟨false, false⟩, .none, false⟩,
    ⟨.stdcall, ⟨false, false⟩, .none, false⟩,
    ⟨.fastcall, ⟨false, false⟩, .none, false⟩,
    ⟨.thiscall, ⟨false, false⟩, .none, false⟩]
  | .other => [
    ⟨.unspecified, ⟨false, false⟩, .none, false⟩]

/-- `MUU_FOR_EACH_MEMBER_CALLCONV_CV`
(`include/muu/impl/preprocessor_for_each_attributes.h:189-197, 346-366, 676-680`): what `func` is applied to, in order,
on each of the platforms. -/
def memberCallConvCv : Platform → List Attributes
  | .win64 => [
    ⟨.cdecl, ⟨false, false⟩, .none, false⟩,
    ⟨.cdecl, ⟨true, false⟩, .none, false⟩,
    ⟨.cdecl, ⟨false, true⟩, .none, false⟩,
    ⟨.cdecl, ⟨true, true⟩, .none, false⟩,
    ⟨.vectorcall, ⟨false, false⟩, .none, false⟩,
    ⟨.vectorcall, ⟨true, false⟩, .none, false⟩,
    ⟨.vectorcall, ⟨false, true⟩, .none, false⟩,
    ⟨.vectorcall, ⟨true, true⟩, .none, false⟩]
  | .win32 => [
    ⟨.cdecl, ⟨false, false⟩, .none, false⟩,
    ⟨.cdecl, ⟨true, false⟩, .none, false⟩,
    ⟨.cdecl, ⟨false, true⟩, .none, false⟩,
    ⟨.cdecl, ⟨true, true⟩, .none, false⟩,
    ⟨.vectorcall, ⟨false, false⟩, .none, false⟩,
    ⟨.vectorcall, ⟨true, false⟩, .none, false⟩,
    ⟨.vectorcall, ⟨false, true⟩, .none, false⟩,
    ⟨.vectorcall, ⟨true, true⟩, .none, false⟩,
    ⟨.stdcall, ⟨false, false⟩, .none, false⟩,
    ⟨.stdcall, ⟨true, false⟩, .none, false⟩,
    ⟨.stdcall, ⟨false, true⟩, .none, false⟩,
    ⟨.stdcall, ⟨true, true⟩, .none, false⟩,
    ⟨.fastcall, ⟨false, false⟩, .none, false⟩,
    ⟨.fastcall, ⟨true, false⟩, .none, false⟩,
    ⟨.fastcall, ⟨false, true⟩, .none, false⟩,
    ⟨.fastcall, ⟨true, true⟩, .none, false⟩,
    ⟨.thiscall, ⟨false, false⟩, .none, false⟩,
    ⟨.thiscall, ⟨true, false⟩, .none, false⟩,
    ⟨.thiscall, ⟨false, true⟩, .none, false⟩,
    ⟨.thiscall, ⟨true, true⟩, .none, false⟩]
  | .other => [
    ⟨.unspecified, ⟨false, false⟩, .none, false⟩,
    ⟨.unspecified, ⟨true, false⟩, .none, false⟩,
    ⟨.unspecified, ⟨false, true⟩, .none, false⟩,
    ⟨.unspecified, ⟨true, true⟩, .none, false⟩]

/-- `MUU_FOR_EACH_MEMBER_CALLCONV_REF`
(`include/muu/impl/preprocessor_for_each_attributes.h:201-207, 370-385, 684-687`): what `func` is applied to, in order,
on each of the platforms. -/
def memberCallConvRef : Platform → List Attributes
  | .win64 => [
    ⟨.cdecl, ⟨false, false⟩, .none, false⟩,
    ⟨.cdecl, ⟨false, false⟩, .lvalue, false⟩,
    ⟨.cdecl, ⟨false, false⟩, .rvalue, false⟩,
    ⟨.vectorcall, ⟨false, false⟩, .none, false⟩,
    ⟨.vectorcall, ⟨false, false⟩, .lvalue, false⟩,
    ⟨.vectorcall, ⟨false, false⟩, .rvalue, false⟩]
  | .win32 => [
    ⟨.cdecl, ⟨false, false⟩, .none, false⟩,
    ⟨.cdecl, ⟨false, false⟩, .lvalue, false⟩,
    ⟨.cdecl, ⟨false, false⟩, .rvalue, false⟩,
    ⟨.vectorcall, ⟨false, false⟩, .none, false⟩,
    ⟨.vectorcall, ⟨false, false⟩, .lvalue, false⟩,
    ⟨.vectorcall, ⟨false, false⟩, .rvalue, false⟩,
    ⟨.stdcall, ⟨false, false⟩, .none, false⟩,
    ⟨.stdcall, ⟨false, false⟩, .lvalue, false⟩,
    ⟨.stdcall, ⟨false, false⟩, .rvalue, false⟩,
    ⟨.fastcall, ⟨false, false⟩, .none, false⟩,
    ⟨.fastcall, ⟨false, false⟩, .lvalue, false⟩,
    ⟨.fastcall, ⟨false, false⟩, .rvalue, false⟩,
    ⟨.thiscall, ⟨false, false⟩, .none, false⟩,
    ⟨.thiscall, ⟨false, false⟩, .lvalue, false⟩,
    ⟨.thiscall, ⟨false, false⟩, .rvalue, false⟩]
  | .other => [
    ⟨.unspecified, ⟨false, false⟩, .none, false⟩,
    ⟨.unspecified, ⟨false, false⟩, .lvalue, false⟩,
    ⟨.unspecified, ⟨false, false⟩, .rvalue, false⟩]

/-- `MUU_FOR_EACH_MEMBER_CALLCONV_CVREF`
(`include/muu/impl/preprocessor_for_each_attributes.h:211-235, 389-449, 691-703`): what `func` is applied to, in order,
on each of the platforms. -/
def memberCallConvCvRef : Platform → List Attributes
  | .win64 => [
    ⟨.cdecl, ⟨false, false⟩, .none, false⟩,
    ⟨.cdecl, ⟨false, false⟩, .lvalue, false⟩,
    ⟨.cdecl, ⟨false, false⟩, .rvalue, false⟩,
    ⟨.cdecl, ⟨true, false⟩, .none, false⟩,
    ⟨.cdecl, ⟨true, false⟩, .lvalue, false⟩,
    ⟨.cdecl, ⟨true, false⟩, .rvalue, false⟩,
    ⟨.cdecl, ⟨false, true⟩, .none, false⟩,
    ⟨.cdecl, ⟨false, true⟩, .lvalue, false⟩,
    ⟨.cdecl, ⟨false, true⟩, .rvalue, false⟩,
    ⟨.cdecl, ⟨true, true⟩, .none, false⟩,
    ⟨.cdecl, ⟨true, true⟩, .lvalue, false⟩,
    ⟨.cdecl, ⟨true, true⟩, .rvalue, false⟩,
    ⟨.vectorcall, ⟨false, false⟩, .none, false⟩,
    ⟨.vectorcall, ⟨false, false⟩, .lvalue, false⟩,
    ⟨.vectorcall, ⟨false, false⟩, .rvalue, false⟩,
    ⟨.vectorcall, ⟨true, false⟩, .none, false⟩,
    ⟨.vectorcall, ⟨true, false⟩, .lvalue, false⟩,
    ⟨.vectorcall, ⟨true, false⟩, .rvalue, false⟩,
    ⟨.vectorcall, ⟨false, true⟩, .none, false⟩,
    ⟨.vectorcall, ⟨false, true⟩, .lvalue, false⟩,
    ⟨.vectorcall, ⟨false, true⟩, .rvalue, false⟩,
    ⟨.vectorcall, ⟨true, true⟩, .none, false⟩,
    ⟨.vectorcall, ⟨true, true⟩, .lvalue, false⟩,
    ⟨.vectorcall, ⟨true, true⟩, .rvalue, false⟩]
  | .win32 => [
    ⟨.cdecl, ⟨false, false⟩, .none, false⟩,
    ⟨.cdecl, ⟨false, false⟩, .lvalue, false⟩,
    ⟨.cdecl, ⟨false, false⟩, .rvalue, false⟩,
    ⟨.cdecl, ⟨true, false⟩, .none, false⟩,
    ⟨.cdecl, ⟨true, false⟩, .lvalue, false⟩,
    ⟨.cdecl, ⟨true, false⟩, .rvalue, false⟩,
    ⟨.cdecl, ⟨false, true⟩, .none, false⟩,
    ⟨.cdecl, ⟨false, true⟩, .lvalue, false⟩,
    ⟨.cdecl, ⟨false, true⟩, .rvalue, false⟩,
    ⟨.cdecl, ⟨true, true⟩, .none, false⟩,
    ⟨.cdecl, ⟨true, true⟩, .lvalue, false⟩,
    ⟨.cdecl, ⟨true, true⟩, .rvalue, false⟩,
    ⟨.vectorcall, ⟨false, false⟩, .none, false⟩,
    ⟨.vectorcall, ⟨false, false⟩, .lvalue, false⟩,
    ⟨.vectorcall, ⟨false, false⟩, .rvalue, false⟩,
    ⟨.vectorcall, ⟨true, false⟩, .none, false⟩,
    ⟨.vectorcall, ⟨true, false⟩, .lvalue, false⟩,
    ⟨.vectorcall, ⟨true, false⟩, .rvalue, false⟩,
    ⟨.vectorcall, ⟨false, true⟩, .none, false⟩,
    ⟨.vectorcall, ⟨false, true⟩, .lvalue, false⟩,
    ⟨.vectorcall, ⟨false, true⟩, .rvalue, false⟩,
    ⟨.vectorcall, ⟨true, true⟩, .none, false⟩,
    ⟨.vectorcall, ⟨true, true⟩, .lvalue, false⟩,
    ⟨.vectorcall, ⟨true, true⟩, .rvalue, false⟩,
    ⟨.stdcall, ⟨false, false⟩, .none, false⟩,
    ⟨.stdcall, ⟨false, false⟩, .lvalue, false⟩,
    ⟨.stdcall, ⟨false, false⟩, .rvalue, false⟩,
    ⟨.stdcall, ⟨true, false⟩, .none, false⟩,
    ⟨.stdcall, ⟨true, false⟩, .lvalue, false⟩,
    ⟨.stdcall, ⟨true, false⟩, .rvalue, false⟩,
    ⟨.stdcall, ⟨false, true⟩, .none, false⟩,
    ⟨.stdcall, ⟨false, true⟩, .lvalue, false⟩,
    ⟨.stdcall, ⟨false, true⟩, .rvalue, false⟩,
    ⟨.stdcall, ⟨true, true⟩, .none, false⟩,
    ⟨.stdcall, ⟨true, true⟩, .lvalue, false⟩,
    ⟨.stdcall, ⟨true, true⟩, .rvalue, false⟩,
    ⟨.fastcall, ⟨false, false⟩, .none, false⟩,
    ⟨.fastcall, ⟨false, false⟩, .lvalue, false⟩,
    ⟨.fastcall, ⟨false, false⟩, .rvalue, false⟩,
    ⟨.fastcall, ⟨true, false⟩, .none, false⟩,
    ⟨.fastcall, ⟨true, false⟩, .lvalue, false⟩,
    ⟨.fastcall, ⟨true, false⟩, .rvalue, false⟩,
    ⟨.fastcall, ⟨false, true⟩, .none, false⟩,
    ⟨.fastcall, ⟨false, true⟩, .lvalue, false⟩,
    ⟨.fastcall, ⟨false, true⟩, .rvalue, false⟩,
    ⟨.fastcall, ⟨true, true⟩, .none, false⟩,
    ⟨.fastcall, ⟨true, true⟩, .lvalue, false⟩,
    ⟨.fastcall, ⟨true, true⟩, .rvalue, false⟩,
    ⟨.thiscall, ⟨false, false⟩, .none, false⟩,
    ⟨.thiscall, ⟨false, false⟩, .lvalue, false⟩,
    ⟨.thiscall, ⟨false, false⟩, .rvalue, false⟩,
    ⟨.thiscall, ⟨true, false⟩, .none, false⟩,
    ⟨.thiscall, ⟨true, false⟩, .lvalue, false⟩,
    ⟨.thiscall, ⟨true, false⟩, .rvalue, false⟩,
    ⟨.thiscall, ⟨false, true⟩, .none, false⟩,
    ⟨.thiscall, ⟨false, true⟩, .lvalue, false⟩,
    ⟨.thiscall, ⟨false, true⟩, .rvalue, false⟩,
    ⟨.thiscall, ⟨true, true⟩, .none, false⟩,
    ⟨.thiscall, ⟨true, true⟩, .lvalue, false⟩,
    ⟨.thiscall, ⟨true, true⟩, .rvalue, false⟩]
  | .other => [
    ⟨.unspecified, ⟨false, false⟩, .none, false⟩,
    ⟨.unspecified, ⟨false, false⟩, .lvalue, false⟩,
    ⟨.unspecified, ⟨false, false⟩, .rvalue, false⟩,
    ⟨.unspecified, ⟨true, false⟩, .none, false⟩,
    ⟨.unspecified, ⟨true, false⟩, .lvalue, false⟩,
    ⟨.unspecified, ⟨true, false⟩, .rvalue, false⟩,
    ⟨.unspecified, ⟨false, true⟩, .none, false⟩,
    ⟨.unspecified, ⟨false, true⟩, .lvalue, false⟩,
    ⟨.unspecified, ⟨false, true⟩, .rvalue, false⟩,
    ⟨.unspecified, ⟨true, true⟩, .none, false⟩,
    ⟨.unspecified, ⟨true, true⟩, .lvalue, false⟩,
    ⟨.unspecified, ⟨true, true⟩, .rvalue, false⟩]

/-- `MUU_FOR_EACH_MEMBER_CALLCONV_NOEXCEPT`
(`include/muu/impl/preprocessor_for_each_attributes.h:239-243, 453-463, 707-709`): what `func` is applied to, in order,
on each of the platforms. -/
def memberCallConvNoexcept : Platform → List Attributes
  | .win64 => [
    ⟨.cdecl, ⟨false, false⟩, .none, false⟩,
    ⟨.cdecl, ⟨false, false⟩, .none, true⟩,
    ⟨.vectorcall, ⟨false, false⟩, .none, false⟩,
    ⟨.vectorcall, ⟨false, false⟩, .none, true⟩]
  | .win32 => [
    ⟨.cdecl, ⟨false, false⟩, .none, false⟩,
    ⟨.cdecl, ⟨false, false⟩, .none, true⟩,
    ⟨.vectorcall, ⟨false, false⟩, .none, false⟩,
    ⟨.vectorcall, ⟨false, false⟩, .none, true⟩,
    ⟨.stdcall, ⟨false, false⟩, .none, false⟩,
    ⟨.stdcall, ⟨false, false⟩, .none, true⟩,
    ⟨.fastcall, ⟨false, false⟩, .none, false⟩,
    ⟨.fastcall, ⟨false, false⟩, .none, true⟩,
    ⟨.thiscall, ⟨false, false⟩, .none, false⟩,
    ⟨.thiscall, ⟨false, false⟩, .none, true⟩]
  | .other => [
    ⟨.unspecified, ⟨false, false⟩, .none, false⟩,
    ⟨.unspecified, ⟨false, false⟩, .none, true⟩]

/-- `MUU_FOR_EACH_MEMBER_CALLCONV_CV_NOEXCEPT`
(`include/muu/impl/preprocessor_for_each_attributes.h:247-263, 467-507, 713-721`): what `func` is applied to, in order,
on each of the platforms. -/
def memberCallConvCvNoexcept : Platform → List Attributes
  | .win64 => [
    ⟨.cdecl, ⟨false, false⟩, .none, false⟩,
    ⟨.cdecl, ⟨false, false⟩, .none, true⟩,
    ⟨.cdecl, ⟨true, false⟩, .none, false⟩,
    ⟨.cdecl, ⟨true, false⟩, .none, true⟩,
    ⟨.cdecl, ⟨false, true⟩, .none, false⟩,
    ⟨.cdecl, ⟨false, true⟩, .none, true⟩,
    ⟨.cdecl, ⟨true, true⟩, .none, false⟩,
    ⟨.cdecl, ⟨true, true⟩, .none, true⟩,
    ⟨.vectorcall, ⟨false, false⟩, .none, false⟩,
    ⟨.vectorcall, ⟨false, false⟩, .none, true⟩,
    ⟨.vectorcall, ⟨true, false⟩, .none, false⟩,
    ⟨.vectorcall, ⟨true, false⟩, .none, true⟩,
    ⟨.vectorcall, ⟨false, true⟩, .none, false⟩,
    ⟨.vectorcall, ⟨false, true⟩, .none, true⟩,
    ⟨.vectorcall, ⟨true, true⟩, .none, false⟩,
    ⟨.vectorcall, ⟨true, true⟩, .none, true⟩]
  | .win32 => [
    ⟨.cdecl, ⟨false, false⟩, .none, false⟩,
    ⟨.cdecl, ⟨false, false⟩, .none, true⟩,
    ⟨.cdecl, ⟨true, false⟩, .none, false⟩,
    ⟨.cdecl, ⟨true, false⟩, .none, true⟩,
    ⟨.cdecl, ⟨false, true⟩, .none, false⟩,
    ⟨.cdecl, ⟨false, true⟩, .none, true⟩,
    ⟨.cdecl, ⟨true, true⟩, .none, false⟩,
    ⟨.cdecl, ⟨true, true⟩, .none, true⟩,
    ⟨.vectorcall, ⟨false, false⟩, .none, false⟩,
    ⟨.vectorcall, ⟨false, false⟩, .none, true⟩,
    ⟨.vectorcall, ⟨true, false⟩, .none, false⟩,
    ⟨.vectorcall, ⟨true, false⟩, .none, true⟩,
    ⟨.vectorcall, ⟨false, true⟩, .none, false⟩,
    ⟨.vectorcall, ⟨false, true⟩, .none, true⟩,
    ⟨.vectorcall, ⟨true, true⟩, .none, false⟩,
    ⟨.vectorcall, ⟨true, true⟩, .none, true⟩,
    ⟨.stdcall, ⟨false, false⟩, .none, false⟩,
    ⟨.stdcall, ⟨false, false⟩, .none, true⟩,
    ⟨.stdcall, ⟨true, false⟩, .none, false⟩,
    ⟨.stdcall, ⟨true, false⟩, .none, true⟩,
    ⟨.stdcall, ⟨false, true⟩, .none, false⟩,
    ⟨.stdcall, ⟨false, true⟩, .none, true⟩,
    ⟨.stdcall, ⟨true, true⟩, .none, false⟩,
    ⟨.stdcall, ⟨true, true⟩, .none, true⟩,
    ⟨.fastcall, ⟨false, false⟩, .none, false⟩,
    ⟨.fastcall, ⟨false, false⟩, .none, true⟩,
    ⟨.fastcall, ⟨true, false⟩, .none, false⟩,
    ⟨.fastcall, ⟨true, false⟩, .none, true⟩,
    ⟨.fastcall, ⟨false, true⟩, .none, false⟩,
    ⟨.fastcall, ⟨false, true⟩, .none, true⟩,
    ⟨.fastcall, ⟨true, true⟩, .none, false⟩,
    ⟨.fastcall, ⟨true, true⟩, .none, true⟩,
    ⟨.thiscall, ⟨false, false⟩, .none, false⟩,
    ⟨.thiscall, ⟨false, false⟩, .none, true⟩,
    ⟨.thiscall, ⟨true, false⟩, .none, false⟩,
    ⟨.thiscall, ⟨true, false⟩, .none, true⟩,
    ⟨.thiscall, ⟨false, true⟩, .none, false⟩,
    ⟨.thiscall, ⟨false, true⟩, .none, true⟩,
    ⟨.thiscall, ⟨true, true⟩, .none, false⟩,
    ⟨.thiscall, ⟨true, true⟩, .none, true⟩]
  | .other => [
    ⟨.unspecified, ⟨false, false⟩, .none, false⟩,
    ⟨.unspecified, ⟨false, false⟩, .none, true⟩,
    ⟨.unspecified, ⟨true, false⟩, .none, false⟩,
    ⟨.unspecified, ⟨true, false⟩, .none, true⟩,
    ⟨.unspecified, ⟨false, true⟩, .none, false⟩,
    ⟨.unspecified, ⟨false, true⟩, .none, true⟩,
    ⟨.unspecified, ⟨true, true⟩, .none, false⟩,
    ⟨.unspecified, ⟨true, true⟩, .none, true⟩]

/-- `MUU_FOR_EACH_MEMBER_CALLCONV_REF_NOEXCEPT`
(`include/muu/impl/preprocessor_for_each_attributes.h:267-279, 511-541, 725-731`): what `func` is applied to, in order,
on each of the platforms. -/
def memberCallConvRefNoexcept : Platform → List Attributes
  | .win64 => [
    ⟨.cdecl, ⟨false, false⟩, .none, false⟩,
    ⟨.cdecl, ⟨false, false⟩, .none, true⟩,
    ⟨.cdecl, ⟨false, false⟩, .lvalue, false⟩,
    ⟨.cdecl, ⟨false, false⟩, .lvalue, true⟩,
    ⟨.cdecl, ⟨false, false⟩, .rvalue, false⟩,
    ⟨.cdecl, ⟨false, false⟩, .rvalue, true⟩,
    ⟨.vectorcall, ⟨false, false⟩, .none, false⟩,
    ⟨.vectorcall, ⟨false, false⟩, .none, true⟩,
    ⟨.vectorcall, ⟨false, false⟩, .lvalue, false⟩,
    ⟨.vectorcall, ⟨false, false⟩, .lvalue, true⟩,
    ⟨.vectorcall, ⟨false, false⟩, .rvalue, false⟩,
    ⟨.vectorcall, ⟨false, false⟩, .rvalue, true⟩]
  | .win32 => [
    ⟨.cdecl, ⟨false, false⟩, .none, false⟩,
    ⟨.cdecl, ⟨false, false⟩, .none, true⟩,
    ⟨.cdecl, ⟨false, false⟩, .lvalue, false⟩,
    ⟨.cdecl, ⟨false, false⟩, .lvalue, true⟩,
    ⟨.cdecl, ⟨false, false⟩, .rvalue, false⟩,
    ⟨.cdecl, ⟨false, false⟩, .rvalue, true⟩,
    ⟨.vectorcall, ⟨false, false⟩, .none, false⟩,
    ⟨.vectorcall, ⟨false, false⟩, .none, true⟩,
    ⟨.vectorcall, ⟨false, false⟩, .lvalue, false⟩,
    ⟨.vectorcall, ⟨false, false⟩, .lvalue, true⟩,
    ⟨.vectorcall, ⟨false, false⟩, .rvalue, false⟩,
    ⟨.vectorcall, ⟨false, false⟩, .rvalue, true⟩,
    ⟨.stdcall, ⟨false, false⟩, .none, false⟩,
    ⟨.stdcall, ⟨false, false⟩, .none, true⟩,
    ⟨.stdcall, ⟨false, false⟩, .lvalue, false⟩,
    ⟨.stdcall, ⟨false, false⟩, .lvalue, true⟩,
    ⟨.stdcall, ⟨false, false⟩, .rvalue, false⟩,
    ⟨.stdcall, ⟨false, false⟩, .rvalue, true⟩,
    ⟨.fastcall, ⟨false, false⟩, .none, false⟩,
    ⟨.fastcall, ⟨false, false⟩, .none, true⟩,
    ⟨.fastcall, ⟨false, false⟩, .lvalue, false⟩,
    ⟨.fastcall, ⟨false, false⟩, .lvalue, true⟩,
    ⟨.fastcall, ⟨false, false⟩, .rvalue, false⟩,
    ⟨.fastcall, ⟨false, false⟩, .rvalue, true⟩,
    ⟨.thiscall, ⟨false, false⟩, .none, false⟩,
    ⟨.thiscall, ⟨false, false⟩, .none, true⟩,
    ⟨.thiscall, ⟨false, false⟩, .lvalue, false⟩,
    ⟨.thiscall, ⟨false, false⟩, .lvalue, true⟩,
    ⟨.thiscall, ⟨false, false⟩, .rvalue, false⟩,
    ⟨.thiscall, ⟨false, false⟩, .rvalue, true⟩]
  | .other => [
    ⟨.unspecified, ⟨false, false⟩, .none, false⟩,
    ⟨.unspecified, ⟨false, false⟩, .none, true⟩,
    ⟨.unspecified, ⟨false, false⟩, .lvalue, false⟩,
    ⟨.unspecified, ⟨false, false⟩, .lvalue, true⟩,
    ⟨.unspecified, ⟨false, false⟩, .rvalue, false⟩,
    ⟨.unspecified, ⟨false, false⟩, .rvalue, true⟩]

/-- `MUU_FOR_EACH_MEMBER_CALLCONV_CVREF_NOEXCEPT`
(`include/muu/impl/preprocessor_for_each_attributes.h:283-331, 545-665, 735-759`): what `func` is applied to, in order,
on each of the platforms. -/
def memberCallConvCvRefNoexcept : Platform → List Attributes
  | .win64 => [
    ⟨.cdecl, ⟨false, false⟩, .none, false⟩,
    ⟨.cdecl, ⟨false, false⟩, .none, true⟩,
    ⟨.cdecl, ⟨false, false⟩, .lvalue, false⟩,
    ⟨.cdecl, ⟨false, false⟩, .lvalue, true⟩,
    ⟨.cdecl, ⟨false, false⟩, .rvalue, false⟩,
    ⟨.cdecl, ⟨false, false⟩, .rvalue, true⟩,
    ⟨.cdecl, ⟨true, false⟩, .none, false⟩,
    ⟨.cdecl, ⟨true, false⟩, .none, true⟩,
    ⟨.cdecl, ⟨true, false⟩, .lvalue, false⟩,
    ⟨.cdecl, ⟨true, false⟩, .lvalue, true⟩,
    ⟨.cdecl, ⟨true, false⟩, .rvalue, false⟩,
    ⟨.cdecl, ⟨true, false⟩, .rvalue, true⟩,
    ⟨.cdecl, ⟨false, true⟩, .none, false⟩,
    ⟨.cdecl, ⟨false, true⟩, .none, true⟩,
    ⟨.cdecl, ⟨false, true⟩, .lvalue, false⟩,
    ⟨.cdecl, ⟨false, true⟩, .lvalue, true⟩,
    ⟨.cdecl, ⟨false, true⟩, .rvalue, false⟩,
    ⟨.cdecl, ⟨false, true⟩, .rvalue, true⟩,
    ⟨.cdecl, ⟨true, true⟩, .none, false⟩,
    ⟨.cdecl, ⟨true, true⟩, .none, true⟩,
    ⟨.cdecl, ⟨true, true⟩, .lvalue, false⟩,
    ⟨.cdecl, ⟨true, true⟩, .lvalue, true⟩,
    ⟨.cdecl, ⟨true, true⟩, .rvalue, false⟩,
    ⟨.cdecl, ⟨true, true⟩, .rvalue, true⟩,
    ⟨.vectorcall, ⟨false, false⟩, .none, false⟩,
    ⟨.vectorcall, ⟨false, false⟩, .none, true⟩,
    ⟨.vectorcall, ⟨false, false⟩, .lvalue, false⟩,
    ⟨.vectorcall, ⟨false, false⟩, .lvalue, true⟩,
    ⟨.vectorcall, ⟨false, false⟩, .rvalue, false⟩,
    ⟨.vectorcall, ⟨false, false⟩, .rvalue, true⟩,
    ⟨.vectorcall, ⟨true, false⟩, .none, false⟩,
    ⟨.vectorcall, ⟨true, false⟩, .none, true⟩,
    ⟨.vectorcall, ⟨true, false⟩, .lvalue, false⟩,
    ⟨.vectorcall, ⟨true, false⟩, .lvalue, true⟩,
    ⟨.vectorcall, ⟨true, false⟩, .rvalue, false⟩,
    ⟨.vectorcall, ⟨true, false⟩, .rvalue, true⟩,
    ⟨.vectorcall, ⟨false, true⟩, .none, false⟩,
    ⟨.vectorcall, ⟨false, true⟩, .none, true⟩,
    ⟨.vectorcall, ⟨false, true⟩, .lvalue, false⟩,
    ⟨.vectorcall, ⟨false, true⟩, .lvalue, true⟩,
    ⟨.vectorcall, ⟨false, true⟩, .rvalue, false⟩,
    ⟨.vectorcall, ⟨false, true⟩, .rvalue, true⟩,
    ⟨.vectorcall, ⟨true, true⟩, .none, false⟩,
    ⟨.vectorcall, ⟨true, true⟩, .none, true⟩,
    ⟨.vectorcall, ⟨true, true⟩, .lvalue, false⟩,
    ⟨.vectorcall, ⟨true, true⟩, .lvalue, true⟩,
    ⟨.vectorcall, ⟨true, true⟩, .rvalue, false⟩,
    ⟨.vectorcall, ⟨true, true⟩, .rvalue, true⟩]
  | .win32 => [
    ⟨.cdecl, ⟨false, false⟩, .none, false⟩,
    ⟨.cdecl, ⟨false, false⟩, .none, true⟩,
    ⟨.cdecl, ⟨false, false⟩, .lvalue, false⟩,
    ⟨.cdecl, ⟨false, false⟩, .lvalue, true⟩,
    ⟨.cdecl, ⟨false, false⟩, .rvalue, false⟩,
    ⟨.cdecl, ⟨false, false⟩, .rvalue, true⟩,
    ⟨.cdecl, ⟨true, false⟩, .none, false⟩,
    ⟨.cdecl, ⟨true, false⟩, .none, true⟩,
    ⟨.cdecl, ⟨true, false⟩, .lvalue, false⟩,
    ⟨.cdecl, ⟨true, false⟩, .lvalue, true⟩,
    ⟨.cdecl, ⟨true, false⟩, .rvalue, false⟩,
    ⟨.cdecl, ⟨true, false⟩, .rvalue, true⟩,
    ⟨.cdecl, ⟨false, true⟩, .none, false⟩,
    ⟨.cdecl, ⟨false, true⟩, .none, true⟩,
    ⟨.cdecl, ⟨false, true⟩, .lvalue, false⟩,
    ⟨.cdecl, ⟨false, true⟩, .lvalue, true⟩,
    ⟨.cdecl, ⟨false, true⟩, .rvalue, false⟩,
    ⟨.cdecl, ⟨false, true⟩, .rvalue, true⟩,
    ⟨.cdecl, ⟨true, true⟩, .none, false⟩,
    ⟨.cdecl, ⟨true, true⟩, .none, true⟩,
    ⟨.cdecl, ⟨true, true⟩, .lvalue, false⟩,
    ⟨.cdecl, ⟨true, true⟩, .lvalue, true⟩,
    ⟨.cdecl, ⟨true, true⟩, .rvalue, false⟩,
    ⟨.cdecl, ⟨true, true⟩, .rvalue, true⟩,
    ⟨.vectorcall, ⟨false, false⟩, .none, false⟩,
    ⟨.vectorcall, ⟨false, false⟩, .none, true⟩,
    ⟨.vectorcall, ⟨false, false⟩, .lvalue, false⟩,
    ⟨.vectorcall, ⟨false, false⟩, .lvalue, true⟩,
    ⟨.vectorcall, ⟨false, false⟩, .rvalue, false⟩,
    ⟨.vectorcall, ⟨false, false⟩, .rvalue, true⟩,
    ⟨.vectorcall, ⟨true, false⟩, .none, false⟩,
    ⟨.vectorcall, ⟨true, false⟩, .none, true⟩,
    ⟨.vectorcall, ⟨true, false⟩, .lvalue, false⟩,
    ⟨.vectorcall, ⟨true, false⟩, .lvalue, true⟩,
    ⟨.vectorcall, ⟨true, false⟩, .rvalue, false⟩,
    ⟨.vectorcall, ⟨true, false⟩, .rvalue, true⟩,
    ⟨.vectorcall, ⟨false, true⟩, .none, false⟩,
    ⟨.vectorcall, ⟨false, true⟩, .none, true⟩,
    ⟨.vectorcall, ⟨false, true⟩, .lvalue, false⟩,
    ⟨.vectorcall, ⟨false, true⟩, .lvalue, true⟩,
    ⟨.vectorcall, ⟨false, true⟩, .rvalue, false⟩,
    ⟨.vectorcall, ⟨false, true⟩, .rvalue, true⟩,
    ⟨.vectorcall, ⟨true, true⟩, .none, false⟩,
    ⟨.vectorcall, ⟨true, true⟩, .none, true⟩,
    ⟨.vectorcall, ⟨true, true⟩, .lvalue, false⟩,
    ⟨.vectorcall, ⟨true, true⟩, .lvalue, true⟩,
    ⟨.vectorcall, ⟨true, true⟩, .rvalue, false⟩,
    ⟨.vectorcall, ⟨true, true⟩, .rvalue, true⟩,
    ⟨.stdcall, ⟨false, false⟩, .none, false⟩,
    ⟨.stdcall, ⟨false, false⟩, .none, true⟩,
    ⟨.stdcall, ⟨false, false⟩, .lvalue, false⟩,
    ⟨.stdcall, ⟨false, false⟩, .lvalue, true⟩,
    ⟨.stdcall, ⟨false, false⟩, .rvalue, false⟩,
    ⟨.stdcall, ⟨false, false⟩, .rvalue, true⟩,
    ⟨.stdcall, ⟨true, false⟩, .none, false⟩,
    ⟨.stdcall, ⟨true, false⟩, .none, true⟩,
    ⟨.stdcall, ⟨true, false⟩, .lvalue, false⟩,
    ⟨.stdcall, ⟨true, false⟩, .lvalue, true⟩,
    ⟨.stdcall, ⟨true, false⟩, .rvalue, false⟩,
    ⟨.stdcall, ⟨true, false⟩, .rvalue, true⟩,
    ⟨.stdcall, ⟨false, true⟩, .none, false⟩,
    ⟨.stdcall, ⟨false, true⟩, .none, true⟩,
    ⟨.stdcall, ⟨false, true⟩, .lvalue, false⟩,
    ⟨.stdcall, ⟨false, true⟩, .lvalue, true⟩,
    ⟨.stdcall, ⟨false, true⟩, .rvalue, false⟩,
    ⟨.stdcall, ⟨false, true⟩, .rvalue, true⟩,
    ⟨.stdcall, ⟨true, true⟩, .none, false⟩,
    ⟨.stdcall, ⟨true, true⟩, .none, true⟩,
    ⟨.stdcall, ⟨true, true⟩, .lvalue, false⟩,
    ⟨.stdcall, ⟨true, true⟩, .lvalue, true⟩,
    ⟨.stdcall, ⟨true, true⟩, .rvalue, false⟩,
    ⟨.stdcall, ⟨true, true⟩, .rvalue, true⟩,
    ⟨.fastcall, ⟨false, false⟩, .none, false⟩,
    ⟨.fastcall, ⟨false, false⟩, .none, true⟩,
    ⟨.fastcall, ⟨false, false⟩, .lvalue, false⟩,
    ⟨.fastcall, ⟨false, false⟩, .lvalue, true⟩,
    ⟨.fastcall, ⟨false, false⟩, .rvalue, false⟩,
    ⟨.fastcall, ⟨false, false⟩, .rvalue, true⟩,
    ⟨.fastcall, ⟨true, false⟩, .none, false⟩,
    ⟨.fastcall, ⟨true, false⟩, .none, true⟩,
    ⟨.fastcall, ⟨true, false⟩, .lvalue, false⟩,
    ⟨.fastcall, ⟨true, false⟩, .lvalue, true⟩,
    ⟨.fastcall, ⟨true, false⟩, .rvalue, false⟩,
    ⟨.fastcall, ⟨true, false⟩, .rvalue, true⟩,
    ⟨.fastcall, ⟨false, true⟩, .none, false⟩,
    ⟨.fastcall, ⟨false, true⟩, .none, true⟩,
    ⟨.fastcall, ⟨false, true⟩, .lvalue, false⟩,
    ⟨.fastcall, ⟨false, true⟩, .lvalue, true⟩,
    ⟨.fastcall, ⟨false, true⟩, .rvalue, false⟩,
    ⟨.fastcall, ⟨false, true⟩, .rvalue, true⟩,
    ⟨.fastcall, ⟨true, true⟩, .none, false⟩,
    ⟨.fastcall, ⟨true, true⟩, .none, true⟩,
    ⟨.fastcall, ⟨true, true⟩, .lvalue, false⟩,
    ⟨.fastcall, ⟨true, true⟩, .lvalue, true⟩,
    ⟨.fastcall, ⟨true, true⟩, .rvalue, false⟩,
    ⟨.fastcall, ⟨true, true⟩, .rvalue, true⟩,
    ⟨.thiscall, ⟨false, false⟩, .none, false⟩,
    ⟨.thiscall, ⟨false, false⟩, .none, true⟩,
    ⟨.thiscall, ⟨false, false⟩, .lvalue, false⟩,
    ⟨.thiscall, ⟨false, false⟩, .lvalue, true⟩,
    ⟨.thiscall, ⟨false, false⟩, .rvalue, false⟩,
    ⟨.thiscall, ⟨false, false⟩, .rvalue, true⟩,
    ⟨.thiscall, ⟨true, false⟩, .none, false⟩,
    ⟨.thiscall, ⟨true, false⟩, .none, true⟩,
    ⟨.thiscall, ⟨true, false⟩, .lvalue, false⟩,
    ⟨.thiscall, ⟨true, false⟩, .lvalue, true⟩,
    ⟨.thiscall, ⟨true, false⟩, .rvalue, false⟩,
    ⟨.thiscall, ⟨true, false⟩, .rvalue, true⟩,
    ⟨.thiscall, ⟨false, true⟩, .none, false⟩,
    ⟨.thiscall, ⟨false, true⟩, .none, true⟩,
    ⟨.thiscall, ⟨false, true⟩, .lvalue, false⟩,
    ⟨.thiscall, ⟨false, true⟩, .lvalue, true⟩,
    ⟨.thiscall, ⟨false, true⟩, .rvalue, false⟩,
    ⟨.thiscall, ⟨false, true⟩, .rvalue, true⟩,
    ⟨.thiscall, ⟨true, true⟩, .none, false⟩,
    ⟨.thiscall, ⟨true, true⟩, .none, true⟩,
    ⟨.thiscall, ⟨true, true⟩, .lvalue, false⟩,
    ⟨.thiscall, ⟨true, true⟩, .lvalue, true⟩,
    ⟨.thiscall, ⟨true, true⟩, .rvalue, false⟩,
    ⟨.thiscall, ⟨true, true⟩, .rvalue, true⟩]
  | .other => [
    ⟨.unspecified, ⟨false, false⟩, .none, false⟩,
    ⟨.unspecified, ⟨false, false⟩, .none, true⟩,
    ⟨.unspecified, ⟨false, false⟩, .lvalue, false⟩,
    ⟨.unspecified, ⟨false, false⟩, .lvalue, true⟩,
    ⟨.unspecified, ⟨false, false⟩, .rvalue, false⟩,
    ⟨.unspecified, ⟨false, false⟩, .rvalue, true⟩,
    ⟨.unspecified, ⟨true, false⟩, .none, false⟩,
    ⟨.unspecified, ⟨true, false⟩, .none, true⟩,
    ⟨.unspecified, ⟨true, false⟩, .lvalue, false⟩,
    ⟨.unspecified, ⟨true, false⟩, .lvalue, true⟩,
    ⟨.unspecified, ⟨true, false⟩, .rvalue, false⟩,
    ⟨.unspecified, ⟨true, false⟩, .rvalue, true⟩,
    ⟨.unspecified, ⟨false, true⟩, .none, false⟩,
    ⟨.unspecified, ⟨false, true⟩, .none, true⟩,
    ⟨.unspecified, ⟨false, true⟩, .lvalue, false⟩,
    ⟨.unspecified, ⟨false, true⟩, .lvalue, true⟩,
    ⟨.unspecified, ⟨false, true⟩, .rvalue, false⟩,
    ⟨.unspecified, ⟨false, true⟩, .rvalue, true⟩,
    ⟨.unspecified, ⟨true, true⟩, .none, false⟩,
    ⟨.unspecified, ⟨true, true⟩, .none, true⟩,
    ⟨.unspecified, ⟨true, true⟩, .lvalue, false⟩,
    ⟨.unspecified, ⟨true, true⟩, .lvalue, true⟩,
    ⟨.unspecified, ⟨true, true⟩, .rvalue, false⟩,
    ⟨.unspecified, ⟨true, true⟩, .rvalue, true⟩]

end Verif.Model.EachAttribute
