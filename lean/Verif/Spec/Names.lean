import Verif.Model.ApiCall

/-! The vocabulary of the public function names, as the crate's documentation
uses it, independent of the dispatch table.

A name is `source_to_destination`.  `nameMeaning` reads it:

* `rgb`, `rgba`, `bgr`, `bgra` — interleaved RGB, 8 bits; with a number, that
  many bits; with the suffix `_f16`, half floats;
* `yuv420`, `yuv422`, `yuv444` — three 8-bit planes; `yuv400` — one luma plane;
* `iSBB`, with `S` one of 0, 2, 4 for 4:2:0, 4:2:2, 4:4:4 and `BB` the bit
  depth — three planes, samples in the low bits, little endian unless `_be`;
* `pSBB` — one luma and one interleaved chroma plane, samples in the high bits;
* `yuv_nv12`, `nv16`, `nv24` — two 8-bit planes, Cb first; `nv21`, `nv61`,
  `nv42` — Cr first;
* `y0BB` — one deep luma plane;
* `ycgco420`…, `icgcSBB` — YCgCo planes; `gbr`, `gbBB` — green, blue, red planes;
* `yuyv422`, `uyvy422`, `yvyu422`, `vyuy422` — packed 4:2:2;
  `ayuv`, `vyua` — packed 4:4:4 (the documentation of `vyua_*` says VUYA);
* `ar30`, `ab30`, `ra30`, `ba30` — 30-bit RGB;
* `_alpha` — with an alpha plane; `_p16` at the end — 16-bit words whose depth
  the caller passes; `sharp_` — the sharp chroma downsampler; `rdp_` — the
  Remote Desktop transform. -/

namespace Verif.Spec

/-- Colour transform of three planes. -/
inductive Family
  | yuv | ycgco | rdp
deriving DecidableEq, Repr

/-- An image layout.  Depth `none`: the depth the caller passes. -/
inductive Layout
  | rgb (ch : Channels) (d : Option Nat)
  | rgbHalf (ch : Channels)
  | rdpRgb (ch : RdpChannels)
  | rgb30 (f : Rgb30)
  | planar (t : Family) (s : Sampling) (d : Option Nat) (e : Endianness) (bp : BytesPacking)
      (alpha : Bool)
  | gray (d : Nat) (e : Endianness) (alpha : Bool)
  | biplanar (s : Sampling) (o : NVOrder) (d : Nat) (e : Endianness) (bp : BytesPacking)
  | packed422 (o : Yuy2) (d : Option Nat)
  | packed444 (f : Packed444)
  | gbr (d : Nat) (alpha : Bool)
  /-- `cn` interleaved channels of 8-bit (`wide = false`) or 16-bit integers. -/
  | words (cn : Nat) (wide : Bool)
  /-- `cn` interleaved channels of half floats. -/
  | halves (cn : Nat)
deriving DecidableEq, Repr

structure Meaning where
  src : Layout
  dst : Layout
  sharp : Bool := false
deriving DecidableEq, Repr

/-! ### Reading names -/

abbrev Token := Name

/-- The parts of a name between underscores. -/
def tokens : List Char → Token → List Token
  | [], acc => [acc.reverse]
  | '_' :: l, acc => acc.reverse :: tokens l []
  | c :: l, acc => tokens l (c :: acc)

/-- The tokens before and after the token `to`. -/
def atTo : List Token → List Token → Option (List Token × List Token)
  | [], _ => none
  | t :: l, acc => if t = w!"to" then some (acc.reverse, l) else atTo l (t :: acc)

def strip : Token → Token → Option Token
  | [], l => some l
  | _ :: _, [] => none
  | a :: p, b :: l => if a = b then strip p l else none

/-- The first entry of a dictionary whose word is the token. -/
def look {α : Type} (dict : List (Token × α)) (t : Token) : Option α :=
  match dict with
  | [] => none
  | (w, a) :: l => if w = t then some a else look l t

/-- The first entry of a dictionary whose word begins the token, and the rest. -/
def lookPrefix {α : Type} (dict : List (Token × α)) (t : Token) : Option (α × Token) :=
  match dict with
  | [] => none
  | (w, a) :: l => match strip w t with
    | some r => some (a, r)
    | none => lookPrefix l t

def channelNames : List (Token × Channels) :=
  [(w!"rgba", .rgba), (w!"rgb", .rgb), (w!"bgra", .bgra), (w!"bgr", .bgr)]

def rdpNames : List (Token × RdpChannels) :=
  [(w!"rgba", .rgba), (w!"rgb", .rgb), (w!"bgra", .bgra), (w!"bgr", .bgr), (w!"abgr", .abgr),
   (w!"argb", .argb)]

def bitDepths : List (Token × Nat) :=
  [(w!"8", 8), (w!"10", 10), (w!"12", 12), (w!"14", 14), (w!"16", 16)]

def samplingDigits : List (Token × Sampling) :=
  [(w!"0", .yuv420), (w!"2", .yuv422), (w!"4", .yuv444)]

def samplingNames : List (Token × Sampling) :=
  [(w!"420", .yuv420), (w!"422", .yuv422), (w!"444", .yuv444)]

def nvNames : List (Token × Sampling × NVOrder) :=
  [(w!"nv12", .yuv420, .uv), (w!"nv21", .yuv420, .vu), (w!"nv16", .yuv422, .uv),
   (w!"nv61", .yuv422, .vu), (w!"nv24", .yuv444, .uv), (w!"nv42", .yuv444, .vu)]

def packed422Names : List (Token × Yuy2) :=
  [(w!"yuyv422", .yuyv), (w!"uyvy422", .uyvy), (w!"yvyu422", .yvyu), (w!"vyuy422", .vyuy)]

def packed444Names : List (Token × Packed444) :=
  [(w!"ayuv", .ayuv), (w!"vyua", .vuya)]

def rgb30Names : List (Token × Rgb30) :=
  [(w!"ar30", .ar30), (w!"ab30", .ab30), (w!"ra30", .ra30), (w!"ba30", .ba30)]

/-- The sampling digit and the bit depth of `010`, `212`, … -/
def samplingDepth (t : Token) : Option (Sampling × Nat) := do
  let (s, r) ← lookPrefix samplingDigits t
  let d ← look bitDepths r
  return (s, d)

/-- One word naming a layout.  `deep`: the name ends in `_p16`. -/
def word (deep : Bool) (t : Token) : Option Layout :=
  let depth8 : Option Nat := if deep then none else some 8
  (do let (ch, r) ← lookPrefix channelNames t
      if r = [] then return .rgb ch depth8
      let d ← look bitDepths r
      return .rgb ch (some d))
  <|> (do let f ← look rgb30Names t
          return .rgb30 f)
  <|> (do let o ← look packed422Names t
          return .packed422 o depth8)
  <|> (do let f ← look packed444Names t
          return .packed444 f)
  <|> (do let (s, o) ← look nvNames t
          return .biplanar s o 8 .little .lsb)
  <|> (do let r ← strip w!"gb" t
          if r = w!"r" then return .gbr 8 false
          let d ← look bitDepths r
          return .gbr d false)
  <|> (do let r ← strip w!"yuv" t
          if r = w!"400" then return .gray 8 .little false
          let s ← look samplingNames r
          return .planar .yuv s depth8 .little .lsb false)
  <|> (do let r ← strip w!"ycgco" t
          let s ← look samplingNames r
          return .planar .ycgco s (some 8) .little .lsb false)
  <|> (do let r ← strip w!"icgc" t
          let (s, d) ← samplingDepth r
          return .planar .ycgco s (some d) .little .lsb false)
  <|> (do let r ← strip w!"y0" t
          let d ← look bitDepths r
          return .gray d .little false)
  <|> (do let r ← strip w!"i" t
          let (s, d) ← samplingDepth r
          return .planar .yuv s (some d) .little .lsb false)
  <|> (do let r ← strip w!"p" t
          let (s, d) ← samplingDepth r
          return .biplanar s .uv d .little .msb)

/-- A qualifier after the word. -/
def qualify (l : Layout) (t : Token) : Option Layout :=
  if t = w!"be" then
    match l with
    | .planar f s d _ bp a => some (.planar f s d .big bp a)
    | _ => none
  else if t = w!"alpha" then
    match l with
    | .planar f s d e bp _ => some (.planar f s d e bp true)
    | .gray d e _ => some (.gray d e true)
    | .gbr d _ => some (.gbr d true)
    | _ => none
  else if t = w!"with" then some l
  else if t = w!"f16" then
    match l with
    | .rgb ch _ => some (.rgbHalf ch)
    | _ => none
  else none

def qualifyAll : Layout → List Token → Option Layout
  | l, [] => some l
  | l, t :: ts => do qualifyAll (← qualify l t) ts

/-- One side of a name. -/
def side (deep : Bool) : List Token → Option Layout
  | [] => none
  | t :: ts =>
    if t = w!"yuv" then
      match ts with
      | [n] => word deep n
      | _ => none
    else do qualifyAll (← word deep t) ts

/-- `t` without a last token `p16`, and whether it was there. -/
def dropP16 : List Token → List Token × Bool
  | [] => ([], false)
  | [t] => if t = w!"p16" then ([], true) else ([t], false)
  | t :: ts => (t :: (dropP16 ts).1, (dropP16 ts).2)

/-- The element layouts of the `convert_*` functions. -/
def elements : List (Token × Layout) :=
  [(w!"plane", .words 1 false), (w!"planar", .words 1 false), (w!"plane16", .words 1 true),
   (w!"planar16", .words 1 true), (w!"rgb", .words 3 false), (w!"rgb16", .words 3 true),
   (w!"rgba", .words 4 false), (w!"rgba16", .words 4 true), (w!"plane_f16", .halves 1),
   (w!"rgb_f16", .halves 3), (w!"rgba_f16", .halves 4)]

/-- The two tokens `a_f16` as one. -/
def joinF16 : List Token → Option Token
  | [a] => some a
  | [a, b] => some (a ++ '_' :: b)
  | _ => none

/-- `convert_rgb16_to_f16`, `convert_rgb_f16_to_rgb16`, … -/
def convertMeaning (l r : List Token) : Option Meaning := do
  let src ← look elements (← joinF16 l)
  let dst ←
    if r = [w!"f16"] then
      match src with
      | .words cn _ => some (.halves cn)
      | _ => none
    else look elements (← joinF16 r)
  return ⟨src, dst, false⟩

def rdpSide (ts : List Token) : Option Layout :=
  match ts with
  | [t] =>
    if t = w!"yuv444" then some (.planar .rdp .yuv444 (some 16) .little .lsb false)
    else do return .rdpRgb (← look rdpNames t)
  | _ => none

/-- What a function of this name is expected to convert. -/
def nameMeaning (n : Name) : Option Meaning :=
  match tokens n [] with
  | [] => none
  | t :: ts =>
    if t = w!"convert" then do
      let (l, r) ← atTo ts []
      convertMeaning l r
    else if t = w!"rdp" then do
      let (l, r) ← atTo ts []
      return ⟨← rdpSide l, ← rdpSide r, false⟩
    else do
      let (l, r) ← atTo (t :: ts) []
      let (r, deep) := dropP16 r
      let (r, sharp) := match r with
        | u :: us => if u = w!"sharp" then (us, true) else (r, false)
        | [] => (r, false)
      return ⟨← side deep l, ← side deep r, sharp⟩

end Verif.Spec
