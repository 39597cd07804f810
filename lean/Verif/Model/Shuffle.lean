import Verif.Model.Gray
/-!
# Channel shuffles and 30-bit RGB

/repo/src/shuffle.rs, /repo/src/rgb_ar30.rs, /repo/src/ar30_rgb.rs and `Rgb30` of
/repo/src/yuv_support.rs.
-/
namespace Verif

/-- Inner loop of the scalar shuffle converter, /repo/src/shuffle.rs:56-73.  The source pixel is
indexed by the source layout's offsets, the destination by its own. -/
def shuffleBody (sc dc : Channels) (px : List Buf) (c : Buf) : Outcome Buf := do
  let s := px.getD 0 []
  let r ← idx s sc.rOff
  let c ← setIdx c dc.rOff r
  let g ← idx s sc.gOff
  let c ← setIdx c dc.gOff g
  let b ← idx s sc.bOff
  let c ← setIdx c dc.bOff b
  if dc.hasAlpha then
    if sc.hasAlpha then do
      let a ← idx s sc.aOff
      setIdx c dc.aOff a
    else setIdx c dc.aOff 255
  else return c

/-- Models `shuffle_impl`, /repo/src/shuffle.rs:124-167, which every function of that file calls.
`hd` stands for the vector converters, which replace the scalar one for the whole row. -/
def shuffle (tg : Target) (sc dc : Channels) (hd : MapHandler) (src : Buf) (sStride : Nat) (dst : Buf)
    (dStride w h : Nat) : Outcome Buf := do
  checkRgba tg src.length sStride w h sc.count
  checkRgba tg dst.length dStride w h dc.count
  mapFrame true w dc.count hd (shuffleBody sc dc) [⟨src, sStride, sc.count, true⟩] dst dStride

/-- Models `Rgb30`, /repo/src/yuv_support.rs:634-640. -/
inductive Rgb30
  | ar30 | ab30 | ra30 | ba30
deriving DecidableEq, Repr

/-- Models `Rgb30ByteOrder`, /repo/src/yuv_support.rs:742-745. -/
inductive ByteOrder30
  | host | network
deriving DecidableEq, Repr

/-- Byte order of the machine. -/
inductive HostOrder
  | little | big
deriving DecidableEq, Repr

/-- The four bytes of a 32-bit word, least significant first. -/
def leBytes (v : Nat) : Buf := [v % 256, v / 256 % 256, v / 65536 % 256, v / 16777216 % 256]

/-- `u32::to_ne_bytes`. -/
def neBytes (e : HostOrder) (v : Nat) : Buf :=
  match e with
  | .little => leBytes v
  | .big => (leBytes v).reverse

/-- `u32::from_ne_bytes`. -/
def fromNe (e : HostOrder) (a b c d : Nat) : Nat :=
  match e with
  | .little => a + 256 * b + 65536 * c + 16777216 * d
  | .big => d + 256 * c + 65536 * b + 16777216 * a

/-- `u32::swap_bytes`. -/
def swap32 (v : Nat) : Nat :=
  fromNe .big (v % 256) (v / 256 % 256) (v / 65536 % 256) (v / 16777216 % 256)

/-- `u32::to_be` and `u32::from_be`, /repo/src/yuv_support.rs:656-667. -/
def toBe (e : HostOrder) (v : Nat) : Nat :=
  match e with
  | .little => swap32 v
  | .big => v

/-- Models `Rgb30::pack_w_a`, /repo/src/yuv_support.rs:686-698, on non-negative arguments: `i32`
shifts drop the bits above 31. -/
def Rgb30.packWA (e : HostOrder) (o : ByteOrder30) (l : Rgb30) (r g b a : Nat) : Nat :=
  let v := (match l with
    | .ar30 => (a <<< 30) ||| (b <<< 20) ||| (g <<< 10) ||| r
    | .ab30 => (a <<< 30) ||| (r <<< 20) ||| (g <<< 10) ||| b
    | .ra30 => (r <<< 22) ||| (g <<< 12) ||| (b <<< 2) ||| a
    | .ba30 => (b <<< 22) ||| (g <<< 12) ||| (r <<< 2) ||| a) % 2 ^ 32
  match o with
  | .host => v
  | .network => toBe e v

/-- Models `Rgb30::pack`, /repo/src/yuv_support.rs:671-684, on non-negative arguments. -/
def Rgb30.pack (e : HostOrder) (o : ByteOrder30) (l : Rgb30) (r g b : Nat) : Nat :=
  let v := (match l with
    | .ar30 => ((3 <<< 30) ||| (b <<< 20)) ||| ((g <<< 10) ||| r)
    | .ab30 => ((3 <<< 30) ||| (r <<< 20)) ||| ((g <<< 10) ||| b)
    | .ra30 => ((r <<< 22) ||| (g <<< 12)) ||| ((b <<< 2) ||| 3)
    | .ba30 => ((b <<< 22) ||| (g <<< 12)) ||| ((r <<< 2) ||| 3)) % 2 ^ 32
  match o with
  | .host => v
  | .network => toBe e v

/-- Models `Rgb30::unpack`, /repo/src/yuv_support.rs:700-733: red, green, blue, alpha. -/
def Rgb30.unpack (e : HostOrder) (o : ByteOrder30) (l : Rgb30) (v : Nat) : Nat × Nat × Nat × Nat :=
  let p := match o with
    | .host => v
    | .network => toBe e v
  match l with
  | .ar30 => (p &&& 0x3ff, (p >>> 10) &&& 0x3ff, (p >>> 20) &&& 0x3ff, p >>> 30)
  | .ab30 => ((p >>> 20) &&& 0x3ff, (p >>> 10) &&& 0x3ff, p &&& 0x3ff, p >>> 30)
  | .ra30 => ((p >>> 22) &&& 0x3ff, (p >>> 12) &&& 0x3ff, (p >>> 2) &&& 0x3ff, p &&& 3)
  | .ba30 => ((p >>> 2) &&& 0x3ff, (p >>> 12) &&& 0x3ff, (p >>> 22) &&& 0x3ff, p &&& 3)

/-- The store of the four bytes, /repo/src/rgb_ar30.rs:69-73. -/
def store4 (e : HostOrder) (v : Nat) (c : Buf) : Outcome Buf := do
  let b := neBytes e v
  let c ← setIdx c 0 (b.getD 0 0)
  let c ← setIdx c 1 (b.getD 1 0)
  let c ← setIdx c 2 (b.getD 2 0)
  setIdx c 3 (b.getD 3 0)

/-- The 10-bit value of a component: `u16::from_ne_bytes([r, r]) >> 6` at 8 bits
(/repo/src/rgb_ar30.rs:54-56), `r >> (BIT_DEPTH - 10)` above (94-105). -/
def to10 (d x : Nat) : Nat := if d = 8 then (x + 256 * x) >>> 6 else x >>> (d - 10)

/-- The 2-bit alpha: `src[3] >> 6` at 8 bits (/repo/src/rgb_ar30.rs:63),
`src[3] >> (BIT_DEPTH - 2)` above (95 and 112). -/
def to2 (d x : Nat) : Nat := if d = 8 then x >>> 6 else x >>> (d - 2)

/-- Inner loop of the row converters, /repo/src/rgb_ar30.rs:46-74 and 96-123. -/
def toAr30Body (e : HostOrder) (o : ByteOrder30) (l : Rgb30) (d : Nat) (ch : Channels)
    (px : List Buf) (c : Buf) : Outcome Buf := do
  let s := px.getD 0 []
  let r ← idx s ch.rOff
  let g ← idx s ch.gOff
  let b ← idx s ch.bOff
  if ch.hasAlpha then do
    let a ← idx s 3
    store4 e (l.packWA e o (to10 d r) (to10 d g) (to10 d b) (to2 d a)) c
  else store4 e (l.pack e o (to10 d r) (to10 d g) (to10 d b)) c

/-- Models `rgb_to_ar30_impl`, /repo/src/rgb_ar30.rs:296-338, which the `rgb*_to_ar30` and
`rgb*_to_ra30` functions call.  The row converters compiled for wider instruction sets
(134-174, 214-258) have the same body. -/
def rgbxToAr30 (tg : Target) (e : HostOrder) (o : ByteOrder30) (l : Rgb30) (d : Nat) (ch : Channels)
    (ar30 : Buf) (aStride : Nat) (rgba : Buf) (stride w h : Nat) : Outcome Buf := do
  checkRgba tg ar30.length aStride w h 4
  checkRgba tg rgba.length stride w h ch.count
  mapFrame true w 4 noMap (toAr30Body e o l d ch) [⟨rgba, stride, ch.count, true⟩] ar30 aStride

/-- Inner loop of `ar30_to_rgb8_impl`, /repo/src/ar30_rgb.rs:68-82. -/
def fromAr30Body (e : HostOrder) (o : ByteOrder30) (l : Rgb30) (ch : Channels)
    (px : List Buf) (c : Buf) : Outcome Buf := do
  let s := px.getD 0 []
  let b0 ← idx s 0
  let b1 ← idx s 1
  let b2 ← idx s 2
  let b3 ← idx s 3
  let u := l.unpack e o (fromNe e b0 b1 b2 b3)
  let a := (u.2.2.2 <<< 6) ||| (u.2.2.2 <<< 4) ||| (u.2.2.2 <<< 2) ||| u.2.2.2
  storePix ch c ((u.1 >>> 2) % 256) ((u.2.1 >>> 2) % 256) ((u.2.2.1 >>> 2) % 256) (a % 256)

/-- Models `ar30_to_rgb8_impl`, /repo/src/ar30_rgb.rs:33-86, which the `a{r,b}30_to_rgb*` and
`{r,b}a30_to_rgb*` functions call. -/
def ar30ToRgbx (tg : Target) (e : HostOrder) (o : ByteOrder30) (l : Rgb30) (ch : Channels)
    (ar30 : Buf) (aStride : Nat) (rgba : Buf) (stride w h : Nat) : Outcome Buf := do
  checkRgba tg ar30.length aStride w h 4
  checkRgba tg rgba.length stride w h ch.count
  mapFrame true w ch.count noMap (fromAr30Body e o l ch) [⟨ar30, aStride, 4, true⟩] rgba stride

end Verif
