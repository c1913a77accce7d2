import Verif.Spec.Span
/-!
# Model of span

Models `/repo/include/muu/span.h`. A span object is its pointer (an address) and, for a dynamic extent, its count; the
template arguments extent and alignment and the element type's size and alignment are carried along. Sizes are numbers
below 2^64; the assertions (`MUU_CONSTEXPR_SAFE_ASSERT`, `static_assert`) guarantee that no subtraction wraps. `none`: an
assertion fails or the code does not compile.
-/
namespace Verif.Model.Span

/-- dynamic_extent, fwd.h: `static_cast<size_t>(-1)` -/
def dynamicExtent : Nat := 2 ^ 64 - 1

/-- `span<T, extent, alignment>`, lines 92–225: the pointer and, if the extent is dynamic, `count`.
    `esize`, `ealign`: sizeof(T), alignof(T) -/
structure Span where
  esize : Nat
  ealign : Nat
  extent : Nat
  align : Nat
  ptr : Nat
  count : Nat
deriving DecidableEq, Repr

/-- size, lines 119–122, 162–165 and 209–212 -/
def Span.size (s : Span) : Nat := if s.extent = dynamicExtent then s.count else s.extent

/-- size_bytes, lines 125–128, 168–171 and 215–218: modulo 2^64 -/
def Span.sizeBytes (s : Span) : Nat := (s.size * s.esize) % 2 ^ 64

/-- empty, lines 131–134 (static extent), 174–177 (zero extent), 221–224 (dynamic) -/
def Span.empty (s : Span) : Bool :=
  if s.extent = dynamicExtent then s.count = 0 else if s.extent = 0 then true else false

/-- span_storage(pointer, size), lines 108–116, 153–159, 197–206, with the alignment template argument resolved as in line
    379: zero is the element's. The pointer must not be null unless there are no elements; a larger alignment is asserted;
    a smaller one does not compile (line 384). Powers of two (line 383) are not required here. -/
def construct (esize ealign extent alignment ptr count : Nat) : Option Span :=
  let align := if alignment = 0 then ealign else alignment
  let size := if extent = dynamicExtent then count else extent
  if alignment ≠ 0 ∧ alignment < ealign then none
  else if size ≠ 0 ∧ ptr = 0 then none
  else if align > ealign ∧ ptr % align ≠ 0 then none
  else some ⟨esize, ealign, extent, align, ptr, count⟩

/-- data, lines 504–507; `none` if the pointer is not aligned as assume_aligned claims (undefined behaviour) -/
def Span.data (s : Span) : Option Nat := if s.ptr % s.align = 0 then some s.ptr else none

/-- the address of `operator[](idx)`, lines 511–514 -/
def Span.at (s : Span) (idx : Nat) : Option Nat := s.data.map (fun p => p + idx * s.esize)

/-- the address of back(), lines 525–528 -/
def Span.back (s : Span) : Option Nat := s.data.map (fun p => p + (s.size - 1) * s.esize)

/-- `first<Count>()`, lines 604–612 -/
def Span.firstStatic (s : Span) (n : Nat) : Option Span :=
  if n ≤ s.extent ∧ n ≤ s.size then s.data.bind (fun p => construct s.esize s.ealign n s.align p n) else none

/-- `first(count)`, lines 615–621 -/
def Span.first (s : Span) (n : Nat) : Option Span :=
  if n ≤ s.size then s.data.bind (fun p => construct s.esize s.ealign dynamicExtent s.align p n) else none

/-- `last<Count>()`, lines 624–632 -/
def Span.lastStatic (s : Span) (n : Nat) : Option Span :=
  if n ≤ s.extent ∧ n ≤ s.size then s.data.bind (fun p => construct s.esize s.ealign n 0 (p + (s.size - n) * s.esize) n) else none

/-- `last(count)`, lines 635–641 -/
def Span.last (s : Span) (n : Nat) : Option Span :=
  if n ≤ s.size then s.data.bind (fun p => construct s.esize s.ealign dynamicExtent 0 (p + (s.size - n) * s.esize) n) else none

/-- `subspan<Offset, Count>()`, lines 644–663 -/
def Span.subspanStatic (s : Span) (off n : Nat) : Option Span :=
  if off < s.extent ∧ (n = dynamicExtent ∨ n ≤ s.extent - off) ∧ off < s.size then
    if n = dynamicExtent then s.data.bind (fun p => construct s.esize s.ealign dynamicExtent 0 (p + off * s.esize) (s.size - off))
    else if n ≤ s.size - off then s.data.bind (fun p => construct s.esize s.ealign n 0 (p + off * s.esize) n)
    else none
  else none

/-- `subspan(offset, count)`, lines 666–680 -/
def Span.subspan (s : Span) (off n : Nat) : Option Span :=
  if off < s.size then
    if n = dynamicExtent then s.data.bind (fun p => construct s.esize s.ealign dynamicExtent 0 (p + off * s.esize) (s.size - off))
    else if n ≤ s.size - off then s.data.bind (fun p => construct s.esize s.ealign dynamicExtent 0 (p + off * s.esize) n)
    else none
  else none

/-- conversion to `span<T, extent, alignment>`, lines 274–295 (static extents: no test that the sizes agree) and 340–347 -/
def Span.convert (s : Span) (extent alignment : Nat) : Option Span :=
  s.data.bind (fun p => construct s.esize s.ealign extent alignment p s.size)

/-- as_bytes and as_writable_bytes, lines 735–766; the static extent is `sizeof(T) * E`, line 90 -/
def Span.asBytes (s : Span) : Option Span :=
  if s.extent = dynamicExtent then s.data.bind (fun p => construct 1 1 dynamicExtent 0 p s.sizeBytes)
  else s.data.bind (fun p => construct 1 1 ((s.esize * s.extent) % 2 ^ 64) 0 p ((s.esize * s.extent) % 2 ^ 64))

/-- the addresses a loop over the span visits: begin() to end(), lines 536–548 -/
def Span.addresses (s : Span) : List Nat := (List.range s.size).map (fun i => s.ptr + i * s.esize)

open Spec.Span in
/-- the specialisations of is_qualifier_compatible, lines 18–82: the qualifiers the patterns for From and To carry, and
    the value -/
def specialisations : List (Quals × Quals × Bool) :=
  let n : Quals := ⟨false, false⟩
  let c : Quals := ⟨true, false⟩
  let v : Quals := ⟨false, true⟩
  let cv : Quals := ⟨true, true⟩
  [(n, n, true), (n, c, true), (n, v, true), (n, cv, true), (c, c, true), (c, v, false), (c, cv, true), (v, c, false),
   (v, v, true), (v, cv, true), (cv, c, false), (cv, v, false), (cv, cv, true)]

open Spec.Span in
/-- a pattern `const From` matches a const type, `From` matches any, and so on ([temp.class.spec.match]) -/
def subsumes (p q : Quals) : Bool := (!p.c || q.c) && (!p.v || q.v)

open Spec.Span in
/-- is_qualifier_compatible, lines 18–82: the value of the matching specialisation which all other matching ones
    subsume (the most specialised, [temp.class.order]); `none` if there is none (ambiguous) -/
def qualifierCompatible (f t : Quals) : Option Bool :=
  let ms := specialisations.filter (fun e => subsumes e.1 f && subsumes e.2.1 t)
  (ms.find? (fun e => ms.all (fun d => subsumes d.1 e.1 && subsumes d.2.1 e.2.1))).map (·.2.2)

end Verif.Model.Span
