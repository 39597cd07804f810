import Verif.Model.NeonNvDeep16
import Verif.Model.NeonNvModes
/-!
# 64-bit ARM with NEON: P010, P210 and P410 to 8-bit RGB

/repo/src/neon/yuv_nv_p10_to_rgba.rs and yuv_nv_p10_to_rgba_prof.rs, with the choice made by the `default`
functions of /repo/src/yuv_nv_p10_to_rgb.rs:92-164.  Eight pixels per step, then the rest of the row through
zeroed buffers for eight pixels.  The feature `professional_mode` is on.
-/
namespace Verif.Neon
open X86

/-- `vqshrun_n_s16::<q>`, and `vqmovun_s16` for `q` = 0. -/
def qshrun16 (q : Nat) (a : Reg) : Reg := fun i => satU8 (s16 a i / 2 ^ q)

/-- Models `vpackuq_n_shift16`, /repo/src/neon/utils.rs:681-693. -/
def packShiftS (d : Nat) (a : Reg) : Reg :=
  if d = 10 then qshrun16 2 a else if d = 12 then qshrun16 4 a else if d = 14 then qshrun16 6 a
  else if d = 16 then qshrun16 8 a else qshrun16 0 a

/-- Red, green and blue words from luma and chroma words without their offsets, fast and balanced modes:
/repo/src/neon/yuv_nv_p10_to_rgba.rs:151-166 (constants) and 184-206 (253-273). -/
def nv10Words (t : InvCoef) (y u v : Reg) : Reg × Reg × Reg :=
  let l := fun o => mlalS o (set1_32 (2 ^ 12 - 1)) y t.y
  let r := fun o => mlalS o (l o) v t.cr
  let g := fun o => mlalS o (mlalS o (l o) v (-t.g1)) u (-t.g2)
  let b := fun o => mlalS o (l o) u t.cb
  (shrn 13 (r 0) (r 4), shrn 13 (g 0) (g 4), shrn 13 (b 0) (b 4))

/-- The same in the professional mode: /repo/src/neon/yuv_nv_p10_to_rgba_prof.rs:65-87 (constants) and 106-130
(185-209). -/
def nv10ProfWords (t : InvCoef) (y u v : Reg) : Reg × Reg × Reg :=
  let l := fun o => qdmlal o (set1_32 (2 ^ 15 - 1)) y (asI16 t.y)
  let r := fun o => qdmlal o (l o) v (asI16 t.cr)
  let g := fun o => qdmlal o (qdmlal o (l o) v (asI16 (-t.g1))) u (asI16 (-t.g2))
  let b := fun o => qdmlal o (qdmlal o (l o) u (asI16 (t.cb - 32767))) u 32767
  (shrn 15 (r 0) (r 4), shrn 15 (g 0) (g 4), shrn 15 (b 0) (b 4))

/-- The arithmetic of a mode: /repo/src/yuv_nv_p10_to_rgb.rs:92-164 and 501-577. -/
def nv10Kernel : Mode → InvCoef → Reg → Reg → Reg → Reg × Reg × Reg
  | .fast => nv10Words
  | .balanced => nv10Words
  | .professional => nv10ProfWords

/-- Eight pixels: /repo/src/neon/yuv_nv_p10_to_rgba.rs:172-218 and (through the stack buffers) 241-287,
/repo/src/neon/yuv_nv_p10_to_rgba_prof.rs:92-142 and 173-219. -/
def nv10Body (md : Mode) (o : NVOrder) (s : Sampling) (e : Endianness) (bp : BytesPacking) (ch : Channels)
    (rg : ChromaRange) (t : InvCoef) (y uv : Buf) (cx ux p : Nat) (row : Buf) : Outcome Buf := do
  let yv ← load16 8 y cx
  let c ← nvChroma8 s o e bp 10 uv ux
  let r := nv10Kernel md t (subsU16 (nativeReg e bp 10 yv) (set1_16 rg.biasY))
    (sub16 c.1 (set1_16 rg.biasUv)) (sub16 c.2 (set1_16 rg.biasUv))
  storeRgb 8 ch p (packShiftS 10 r.1) (packShiftS 10 r.2.1) (packShiftS 10 r.2.2) (set1_8 255) row

/-- Models `neon_yuv_nv12_p10_to_rgba_row`, /repo/src/neon/yuv_nv_p10_to_rgba.rs:123-312, and
`neon_yuv_nv12_p10_to_rgba_row_prof`, /repo/src/neon/yuv_nv_p10_to_rgba_prof.rs:38-238. -/
def nv10Row (md : Mode) (o : NVOrder) (s : Sampling) (e : Endianness) (bp : BytesPacking) (ch : Channels)
    (rg : ChromaRange) (t : InvCoef) (width : Nat) (y uv row : Buf) : Outcome (Buf × Nat × Nat) := do
  let r ← vwhile 8 (nvStep s 8) width
    (fun cx ux row => nv10Body md o s e bp ch rg t y uv cx ux (cx * ch.count) row) 0 0 row
  nvTailRow 8 s ch width (fun y uv d => nv10Body md o s e bp ch rg t y uv 0 0 0 d) y uv r.1 r.2.1 r.2.2

/-- Models `handle_row`, /repo/src/yuv_nv_p10_to_rgb.rs:188-204. -/
def nv10Handler (md : Mode) (o : NVOrder) (s : Sampling) (e : Endianness) (bp : BytesPacking)
    (ch : Channels) (rg : ChromaRange) (t : InvCoef) (width : Nat) : RowHandlerNV :=
  fun y uv row => done (nv10Row md o s e bp ch rg t width y uv row)

/-- `yuv_nv_p10_to_image_impl` (`Verif.nvP10ToRgb8`) on 64-bit ARM. -/
def nvP10ToRgb8 (md : Mode) (o : NVOrder) (e : Endianness) (bp : BytesPacking)
    (ch : Channels) (s : Sampling) (i : BiPlanar) (rgba : Buf) (stride : Nat) (rg : YuvRange)
    (m : Matrix) : Outcome Buf :=
  Verif.nvP10ToRgb8 x64 md o e bp ch s
    (nv10Handler md o s e bp ch (getYuvRange 10 rg) (searchInverse (nvP10Precision md) 10 rg m) i.width)
    i rgba stride rg m

end Verif.Neon
