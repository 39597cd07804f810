/-!
# Core of the model: outcomes, machine integers, slices and chunk loops

Models the parts of the Rust language and of `core::slice` that the crate's
conversion loops rely on.
-/
namespace Verif

/-- A slice `&[u8]` / `&[u16]` (or the contents of a `Vec`).  Elements are
naturals; that they fit the element type is a separate hypothesis. -/
abbrev Buf := List Nat

/-- Payload of the size errors.  Models `MismatchedSize`,
/repo/src/yuv_error.rs:33-38. -/
structure MismatchedSize where
  expected : Nat
  received : Nat
deriving DecidableEq, Repr

/-- Models `YuvError`, /repo/src/yuv_error.rs:40-54. -/
inductive YuvError where
  | destinationSizeMismatch (s : MismatchedSize)
  | minimumStrideSizeMismatch (s : MismatchedSize)
  | pointerOverflow
  | zeroBaseSize
  | lumaPlaneSizeMismatch (s : MismatchedSize)
  | lumaPlaneMinimumSizeMismatch (s : MismatchedSize)
  | chromaPlaneMinimumSizeMismatch (s : MismatchedSize)
  | chromaPlaneSizeMismatch (s : MismatchedSize)
  | packedFrameSizeMismatch (s : MismatchedSize)
  | imagesSizesNotMatch
  | imageDimensionsNotMatch
deriving DecidableEq, Repr

/-- Outcome of a Rust call: `Ok`, `Err`, or a panic (index out of bounds, slice
out of range, `unwrap` on `None`, arithmetic overflow in a debug build). -/
inductive Outcome (α : Type) where
  | ok (a : α)
  | err (e : YuvError)
  | panic
deriving DecidableEq, Repr

namespace Outcome

/-- Sequencing: `?` on errors, unwinding on panics. -/
def bind {α β : Type} : Outcome α → (α → Outcome β) → Outcome β
  | ok a, f => f a
  | err e, _ => err e
  | panic, _ => panic

instance : Monad Outcome where
  pure := ok
  bind := Outcome.bind

@[simp] theorem bind_ok {α β : Type} (a : α) (f : α → Outcome β) :
    (Bind.bind (Outcome.ok a) f : Outcome β) = f a := rfl
@[simp] theorem bind_err {α β : Type} (e : YuvError) (f : α → Outcome β) :
    (Bind.bind (Outcome.err e : Outcome α) f : Outcome β) = .err e := rfl
@[simp] theorem bind_panic {α β : Type} (f : α → Outcome β) :
    (Bind.bind (Outcome.panic : Outcome α) f : Outcome β) = .panic := rfl
@[simp] theorem pure_eq {α : Type} (a : α) : (pure a : Outcome α) = .ok a := rfl

/-- Did the call return `Ok`? -/
def isOk {α : Type} : Outcome α → Bool
  | ok _ => true
  | _ => false

/-- Forget the value, keep the status of the call. -/
def status {α : Type} : Outcome α → Outcome Unit
  | ok _ => ok ()
  | err e => err e
  | panic => panic

end Outcome

/-! ## Machine integers -/

/-- Overflow check of an `i32` operation (debug semantics: panic). -/
def chk32 (x : Int) : Outcome Int :=
  if -2147483648 ≤ x ∧ x ≤ 2147483647 then .ok x else .panic

/-- `i32` addition. -/
def add32 (a b : Int) : Outcome Int := chk32 (a + b)
/-- `i32` subtraction. -/
def sub32 (a b : Int) : Outcome Int := chk32 (a - b)
/-- `i32` multiplication. -/
def mul32 (a b : Int) : Outcome Int := chk32 (a * b)

/-- Overflow check of an `i16` operation (debug semantics: panic). -/
def chk16 (x : Int) : Outcome Int :=
  if -32768 ≤ x ∧ x ≤ 32767 then .ok x else .panic

/-- Arithmetic shift right of a signed integer: floor division by a power of two. -/
def sar (x : Int) (n : Nat) : Int := x / (2 ^ n : Int)

/-- `x as u8` for a signed `x`: the low eight bits. -/
def asU8 (x : Int) : Nat := (x % 256).toNat
/-- `x as u16` for a signed `x`: the low sixteen bits. -/
def asU16 (x : Int) : Nat := (x % 65536).toNat
/-- `x as i16`: the low sixteen bits, read as two's complement. -/
def asI16 (x : Int) : Int := (x + 32768) % 65536 - 32768

/-! ## Slices -/

/-- `l[i]` -/
def idx (l : Buf) (i : Nat) : Outcome Nat :=
  match l[i]? with
  | some v => .ok v
  | none => .panic

/-- `l[i] = v` -/
def setIdx (l : Buf) (i v : Nat) : Outcome Buf :=
  if i < l.length then .ok (l.set i v) else .panic

/-- `&l[a..b]` -/
def slice (l : Buf) (a b : Nat) : Outcome Buf :=
  if a ≤ b ∧ b ≤ l.length then .ok ((l.drop a).take (b - a)) else .panic

/-- Write back through `&mut l[..b]`: run `g` on the prefix of length `b`, keep the rest. -/
def onPrefix (l : Buf) (b : Nat) (g : Buf → Outcome Buf) : Outcome Buf :=
  if b ≤ l.length then do
    let p ← g (l.take b)
    return p ++ l.drop b
  else .panic

/-- Number of chunks `l.chunks_exact(n)` yields. -/
def chunkCount (n : Nat) (l : Buf) : Nat := l.length / n

/-- The `k`-th chunk of `l.chunks_exact(n)`. -/
def chunk (n : Nat) (l : Buf) (k : Nat) : Buf := (l.drop (k * n)).take n

/-- `l.chunks_exact(n).remainder()` -/
def remainder (n : Nat) (l : Buf) : Buf := l.drop (l.length / n * n)

/-- `l.chunks_exact(n).last().unwrap()` -/
def lastChunk (n : Nat) (l : Buf) : Outcome Buf :=
  if n = 0 then .panic
  else if l.length / n = 0 then .panic
  else .ok (chunk n l (l.length / n - 1))

/-- `*l.last().unwrap()` -/
def lastElem (l : Buf) : Outcome Nat :=
  match l.getLast? with
  | some v => .ok v
  | none => .panic

/-- `k` successive chunks of length `n`, the first of which has index `j`, are
replaced by what `g` makes of them. -/
def forChunks (n : Nat) (g : Nat → Buf → Outcome Buf) : Nat → Nat → Buf → Outcome Buf
  | 0, _, l => .ok l
  | k + 1, j, l => do
      let c ← g j (l.take n)
      let r ← forChunks n g k (j + 1) (l.drop n)
      return c ++ r

/-- The loop `for (i, c) in l.chunks_exact_mut(n)…skip(s)`: chunks `s ≤ i < k`
are replaced by `g i c`.  `k` is the trip count: the number of chunks of `l`,
or less if `l` is zipped with shorter iterators.  `chunks_exact_mut(0)` panics. -/
def eachChunk (n s k : Nat) (g : Nat → Buf → Outcome Buf) (l : Buf) : Outcome Buf :=
  if n = 0 then .panic
  else do
    let r ← forChunks n g (k - s) s (l.drop (s * n))
    return l.take (s * n) ++ r

/-- `l.chunks_exact_mut(n).last().unwrap()` handed to `g`. -/
def onLastChunk (n : Nat) (g : Buf → Outcome Buf) (l : Buf) : Outcome Buf :=
  if n = 0 then .panic
  else if l.length / n = 0 then .panic
  else eachChunk n (l.length / n - 1) (l.length / n) (fun _ c => g c) l

/-- `l.chunks_exact_mut(n).into_remainder()` handed to `g`. -/
def onRemainder (n : Nat) (g : Buf → Outcome Buf) (l : Buf) : Outcome Buf :=
  if n = 0 then .panic
  else do
    let r ← g (l.drop (l.length / n * n))
    return l.take (l.length / n * n) ++ r

/-- `u32::div_ceil(2)` / `usize::div_ceil(2)` -/
def ceil2 (n : Nat) : Nat := (n + 1) / 2

end Verif
