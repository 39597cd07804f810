# Formal model of yuvutils-rs (crate `yuv`) in Lean 4

`properties.jsonl` lists the properties, `MANIFEST.json` the theorems that
prove (or refute) each of them, `seeded/LOG.jsonl` the wrong programs the
theorems were tried against.

## 1. How the code is modelled

The crate is a set of conversion functions over slices.  Each modelled Rust
function is a total, computable Lean function with a comment citing the lines
it models.

* A slice of `u8`/`u16` is a `List Nat` (`Buf`).  A `&mut` slice is an argument
  and a returned new value.
* The outcome of a call is `Outcome α = ok a | err e | panic`.  Index out of
  bounds, `unwrap` on `None`, `chunks_exact(0)` and signed overflow (debug
  semantics) are explicit panics, so "no panic" is part of every theorem that
  concludes `= .ok out`.
* `chunks_exact`, `chunks_exact_mut`, `zip`, `skip`, `remainder`, `last`,
  `split_at` and slicing have explicit models (`Model/Core`, `Model/Loops`,
  `Model/EncodeLoops`).  A loop over zipped chunks is its trip count — the
  minimum of the zipped lengths — and an indexed body.
* `i32` arithmetic is done on `Int` with a range check after every operation.
  Theorems show that the checks never fire for the parameters the crate uses, so
  debug and release builds agree; where they do fire that is a finding.
* `>> n` on signed values is floor division by `2^n`; `as u8` is reduction
  modulo 256.
* f32 arithmetic of the coefficient computation is exact: round to nearest even
  at 24 significant bits over `Rat` (`Model/F32`); half floats likewise
  (`Model/F16`).
* Row parallelism is a schedule of row tasks on disjoint slices (C24).
* Vector code.  A row handler is a parameter with a contract
  (`Spec/Vector`): on rows that are long enough it completes some prefix of the
  row with pixels satisfying a relation `R`, says how far it got and touches
  nothing else.  For the 8-bit planar, semi-planar and grey decoders and
  encoders on x86 the handlers themselves are modelled, intrinsic by intrinsic (`Model/X86*`): registers are byte vectors
  (`Nat → Nat`), loads and stores outside their slice panic, and the theorems
  C53–C103 are about the code that runs on an AVX2, an SSE4.1 and a plain
  processor.  C104 and C105 are about the kernels of 32-bit WebAssembly with
  SIMD (`Model/Wasm`), on a target with a 32-bit `usize`; C106–C147 about the
  NEON kernels of AArch64 (`Model/Neon` and `Model/Neon*`), with and without the rounding
  multiply-accumulate instructions.

Layers: `Model/` the code, `Spec/` what the properties mean (independent of the
model's helpers), `Lemmas/` proofs connecting them, `Props/` the property
theorems, each followed by examples showing that its hypotheses can be met.

Typical statement: for every good image (`GoodPlanar`: planes with full rows and
samples in range) and good destination (`GoodDst`), `∃ out, converter … = .ok out
∧ FrameSpec out dst stride w h cn pix`: the components of pixel `(x, y)` sit at
`y*stride + x*cn + c` and equal `pix x y`, and every other element is unchanged.

## 2. Plan per property

| id | modelled | how proved |
|----|----------|------------|
| C01 | `check_y8_channel`, `check_chroma_channel`, image `check_constraints` with a parametric `usize` | case analysis + `omega`; iff theorem |
| C02 | `check_rgba_destination` | as C01, plus error variant table; 32-bit wrap-around witness |
| C03 | `check_interleaved_chroma_channel` incl. u32 overflow | iff; negation witnesses |
| C04 | `alloc` constructors | composition with C01/C03 |
| C05 | converters as functions returning status and buffers | the checks precede every write; status depends on lengths only |
| C06 | tables + f32 model of the coefficient computation | `decide +kernel` over the whole finite table of configurations |
| C07 | `div_by_255` | `omega` |
| C08 | pixel kernels in checked `i32` | interval arithmetic from coefficient bounds |
| C09 | encode kernels | linear arithmetic from coefficient sums; Fast-mode witness |
| C10, C11 | pixel kernels vs exact rational formula | error analysis + coefficient distance (C06) |
| C12 | kernels | linear arithmetic from coefficient row sums |
| C13, C48 | kernels composed, then the two API calls composed | error propagation |
| C14 | kernels | monotonicity of floor division and clamping |
| C15 | `yuv_to_rgbx_impl` | refinement of the chunk loops to one canonical pixel update |
| C16 | same | negation witnesses (short last row) + `_partial` for full rows |
| C17, C18 | `yuv_nv12_to_rgbx_impl` | as C15 |
| C19 | layouts | from C15/C20 |
| C20, C21 | `rgbx_to_yuv8_impl`, `rgbx_to_nv_impl` | as C15; negation for odd width |
| C22, C23 | corollaries of C15/C20 | decoding is a function of the samples shown at the pixel |
| C24 | row tasks as disjoint updates | commutation of disjoint updates, permutations |
| C25 | abstract vector prefix | skip lemma |
| C26, C50, C43 | gray converters | as C15; negation witnesses for missing validation |
| C27, C51 | alpha converters | as C15; negation witnesses |
| C28–C31 | 10- to 16-bit converters | as C15; negation witnesses |
| C32 | `to_ne`, `transform_integer` | bit-level lemmas by arithmetic |
| C33 | GBR converters | as C15 |
| C34 | YCgCo converters | linear arithmetic; negation witnesses |
| C35–C37 | YUY2 converters | as C15; negation witnesses |
| C38, C39 | `Rgb30` pack/unpack, AR30 converters | arithmetic; negation for 12-bit |
| C40 | `shuffle_impl` | as C15 |
| C41 | AYUV/VUYA | as C15 |
| C42 | RDP converters | linear arithmetic |
| C44 | sharp YUV rows with arbitrary gamma tables | as C20; `powf` tables are parameters |
| C45 | kernels at several precisions | error analysis via exact formula |
| C46 | geometry entry points; the moves are in the external crate `fast_transpose` | external functions are parameters with contracts |
| C47 | half-float converters, correctly rounded half arithmetic | error analysis over `Rat` |
| C49 | weights of the named matrices | comparison with the H.273 table |
| C52 | dispatch table of all 581 public functions (generated from the source text by `tools/api_extract.py`, `tools/api_gen.py`) | `decide +kernel` over the whole table |
| C53–C55 | AVX2 and SSE4.1 kernels of the 8-bit planar decoders | each intrinsic as a byte-vector function; loop invariant "prefix painted"; error analysis of the rounding high multiply |
| C56–C58 | AVX2 and SSE4.1 kernels of the 8-bit semi-planar decoders | as C53–C55, with the deinterleaving shuffles; comparison of the two exact results |
| C59–C63 | AVX2 and SSE4.1 kernels of the 8-bit planar encoders | as C53–C55; every row is finished by the vector code, so frames are computed exactly; error analysis of the rounding high multiply against the scalar code and the ITU-R formula |
| C64–C67 | AVX2 and SSE4.1 kernels of the 8-bit semi-planar encoders | as C59–C63, with the interleaving stores; comparison with the planar encoders |
| C68–C70 | AVX2 and SSE4.1 kernels of the 8-bit decoders with an alpha plane | as C53–C55; word-by-word account of the 16-bit division by 255, relation between the straight and the premultiplied result |
| C71–C73 | AVX2 and SSE4.1 kernels of the 8-bit grey converters | as C53–C55 and C59; the level is one of 256 per matrix, so the comparison with the scalar code is a complete table |
| C74 | AVX2 and SSE4.1 kernels of the channel shuffles | loads and stores as in C53 and C59; `chunks_exact` loops paint a prefix, the stack buffers the rest; the frame determines the bytes, so processors agree |
| C75 | AVX2 and SSE4.1 kernels of the GBR decoders | as C71 with three planes; the levels of the 256 samples by `decide +kernel` over the whole table |
| C76 | AVX2 and SSE4.1 packers from 4:2:2 and 4:2:0 | register moves byte by byte; a loop lemma in units of pairs gives the contract of C35; processors agree |
| C77 | the same from 4:4:4 | exact frame (`Spec/VecYuy2`) with the pairs that keep the old bytes; the property up to 16 columns; general theorems about the wrong and unwritten pairs |
| C78 | unpacking packed 4:2:2 on x86 | state of the vector loops as filled prefixes; exact frames for the three samplings with the columns that keep the old bytes (`Spec.UnpackDone`); the property for the widths it holds for; general theorems about unwritten columns and the wrong chroma row |
| C79 | packed 4:2:2 to RGB on x86 | words of the kernels as integers, saturation shown harmless for every range and matrix; exact frame (`Spec.x86YuyPixel`): scalar decoding with the luma raised to its offset where the vector code works; agreement, largest distance and accuracy from it; witness of the disagreement |
| C80 | packed 4:4:4 decoders on x86 | Model/X86Ayuv: the AVX2 kernel (loop and tail) with bounds-checked loads and stores, the dispatch; the row is painted column by column, the colours are those of the alpha kernels (C68) |
| C81 | premultiplied packed 4:4:4 on x86 | the two multiplications of the kernel as functions of the unsaturated sum; partial: false for saturated components at the end of a row on AVX2, with witnesses |
| C82 | RemoteFX encoder, AVX2 kernel | Model of the kernel plane by plane (loads of six layouts, widening, multiply-add in 32-bit elements, packing with saturation, 16-bit stores, tail through buffers); exact 16-bit samples by column, uniqueness of the planes gives agreement |
| C83 | Decoders of 10- to 16-bit planar images to RGB of the same depth, x86 | Model of the 16-bit kernels (AVX2 at 10 bits, SSE4.1 at 10 and 12) and the 32-bit AVX2 kernel (12, 14, 16), 16-bit loads and stores, byte swap, packing, three chroma loads; generic row invariant, exact pixel as a function of native samples |
| C84 | Agreement of processors on those decoders | Sum of rounded terms against rounded sum (two code values), equality for the 32-bit kernel; legal samples only, witnesses of the failures |
| C85 | x86 decoders of planar 10/12-bit images to 8 bits | Model of the AVX2 and SSE4.1 kernels run one after the other; words of a step = specification triples and the bytes of the alpha word; three paint loops; frame theorem for every content |
| C86 | Agreement of processors on those decoders | Sum of rounded terms cut down against the rounded sum (never above, at most one below); alpha failure for every image nine or more pixels wide; witnesses for bright colours and below black |
| C87 | 10- to 16-bit decoders with an alpha plane on x86 | Kernels modelled with bounds-checked loads and stores; rows by induction over the three loops, the alpha column as a function of the column; frames by the generic alpha lemmas |
| C88 | Agreement of processors on those decoders | Rounded terms against the rounded sum (at most two apart); alpha of the left half block proved for every image 33 or more wide on AVX2; witnesses |
| C89 | 10- and 12-bit decoders with an alpha plane to 8 bits on x86 | As C87, with stores behind the decoded pixels that later stores overwrite; out-of-row stores proved as a panic for every other width |
| C90 | Agreement of processors on those decoders | As C86; alpha failures proved |
| C91 | x86 kernel of the 10- and 12-bit semi-planar decoders | Model of the SSE4.1 kernel (also used with AVX2); bodies proved lane by lane, rows by `FillsRow`, whose pixel relation sees the chroma of the whole row |
| C92 | Agreement of processors on those decoders | Arithmetic where the vector code uses the chroma of the column; grey columns proved for every image |
| C93 | 10- to 16-bit planar encoders on x86 | Kernels as loops of width n over checked slices; loop invariant `encSt`; exact row contracts lifted to frames by `encode4xx_exact` |
| C94 | Correct values on those encoders | Wrapped 32-bit sums equal the exact ones on the weight tables; averages of averages differ by one; failures by witness |
| C95 | 10- to 16-bit 4:4:4 round trip between x86 processors | Encoder planes of C93 fed to the frames of C83; C48's bound on the portable arithmetic plus the distance of the vector decoders |
| C96 | Professional mode of the 8-bit encoders on x86 | A vector encoder is a record of a load and seven register functions (`Model/X86Parts`); loops, tails through scratch buffers and frames are proved once for every record meeting `PartOk`; the professional kernels are two instances |
| C97 | Agreement and accuracy in that mode | Doubled components at precision 16 against rounded averages at precision 15; exact means; weight tables checked whole |
| C98 | Fast mode, 8-bit encoders | Model/X86Fast instance of the generic encoder; 16-bit wrapping sums kept in the specification; weights of all tables fit signed bytes |
| C99 | Agreement and accuracy in that mode | Both averages differ by 0 or 1, a weight row moves by less than 128; BT.2020 full luma evaluated as a function of its sum |
| C100 | Professional mode, 8-bit semi-planar decoders | Model/X86NvModes: one row handler for any kernel; a kernel is right if each step gives a stated triple per pixel; lanes by cases over the registers |
| C101 | Agreement and accuracy in that mode | The vector triple is the scalar one with luma raised to black and the red coefficient reduced to 16 bits; C10 at precision 14 |
| C102 | Fast mode, 8-bit semi-planar decoders | Same handler; 16-bit wrapping sums kept in the specification |
| C103 | Agreement in that mode | Sums without wrap differ by the rounding constant only |
| C104 | WebAssembly decoders, 32-bit `usize` | Acceptance on every target that can address the slices; register model; rows by `paintLoop`; frames as for x86 |
| C105 | Agreement with the portable code | Two (three) terms rounded separately against their rounded sum |
| C106 | NEON decoders (AArch64), `rdm` on or off | Register model; `colours_at` lane by lane; rows by `stepP`/`rowP`; frames as for x86 |
| C107 | Agreement with the portable code and accuracy | Scaled terms rounded (or truncated) separately against their rounded sum |
| C108 | Independence of the place | Green by addition of negated terms equals green by subtraction, except for ties; whole finite tables |
| C109 | NEON encoders (AArch64), balanced mode, `rdm` on or off | Kernels as `Part`s (`Lemmas/NeonEncode`), rows with one or two loops (`Lemmas/NeonEncodeRows`), frames as for x86 |
| C110 | Agreement with the portable encoder, distance to the standard, nominal range | Averages compared block by block, one step of an average moves chroma by at most one, RDM sums bounded term by term |
| C111 | NEON encoders, professional mode, chroma order | As C109; the order of NV21 4:2:0 is refuted: the row pairs take the subsampling for the order |
| C112 | NEON encoders, fast mode | As C109; unsigned sums saturate, so BT.2020 white is right here and wrong in the portable code |
| C113 | NEON YCgCo decoder | Kernels modelled; exact frames; colours are those of the portable code, alpha is 0 in part of the images |
| C114 | NEON decoder with an alpha plane | Kernel modelled; the frame is fixed pixel by pixel by two passes of the row lemma (the alpha that multiplies, the alpha that is stored); straight colours near the portable ones, alpha lost in the last columns of sub-sampled images |
| C115 | NEON premultiplication | Right in the last columns, the alpha of the other half in groups of 32 pixels |
| C116 | NEON channel shuffles | Kernel modelled; exact frames; equal to the portable code except for the alpha added after the last whole group of 16 pixels |
| C117 | NEON grey encoder | Kernels modelled; exact frames with the column deciding between vector and portable code; the offset is missing without RDM in limited range |
| C118 | NEON grey decoder with alpha | Kernel modelled; exact frames, agreement, same bytes as without alpha on an opaque plane |
| C119 | NEON GBR decoders | Three kernels modelled; exact frames, same bytes as the portable code by the whole table of samples, round trip |
| C120 | NEON packing of 4:2:2 and 4:2:0 | Kernel modelled (both loops); exact frames, same bytes as every x86 build |
| C121 | NEON packing of 4:4:4 | Exact frames; partial: right up to 16 columns or with flat chroma, wrong columns averaged and columns unwritten otherwise, witness |
| C122 | NEON unpacking of packed 4:2:2 | Kernel proved equal to the SSE4.1 kernel for every input, so C78 carries over; partial with witness |
| C123 | NEON decoding of packed 4:2:2 | Exact frame for every input; within one step of x86, partial agreement and accuracy, witnesses for ties and dark luma |
| C124 | NEON decoding of packed 4:4:4 | Kernel modelled with its tail; exact frames, alpha, agreement with the portable code |
| C125 | NEON premultiplication of packed 4:4:4 | From the exact frames, with the division proved for all products |
| C126 | NEON professional semi-planar decoders (`Model/NeonNvModes`) | Kernels as instances of the x86 kernel frame; doubled saturating products proved equal to the precision-14 sum |
| C127 | The same against portable code and ITU-R | Through C126 from C101; partial, witnesses for SMPTE 240 and dark luma |
| C128 | NEON fast semi-planar decoders | Instance of the same frame; 16-bit sums that wrap, ties up |
| C129 | The same against other processors | Component-wise comparison of the roundings; partial against portable code, witness for wrapped blue |
| C130 | NEON planar 10/12-bit to 8-bit decoder (`Model/NeonDeep8`) | Loop invariant over painted columns; 32-bit sums proved not to wrap for any 16-bit words |
| C131 | The same against portable code, x86 and ITU-R | Cut after rounding compared with rounding at once; partial, witnesses for white and luma below black |
| C132 | NEON grey decoder of 10 to 16 bits (`Model/NeonGrayDeep`) | Loop invariant; the vector word equals the specified level for every 16-bit luma word; same bytes as portable |
| C133 | The same decoder stays inside its slices | Proved for rows that hold the pixels; general theorem and witness that it is false for shorter rows; partial |
| C134 | NEON decoders of planar 10- to 16-bit images to RGB of the same depth (`Model/NeonDeep16`) | Two loops and a buffered tail, one invariant; lane by lane arithmetic for arbitrary words; frame and representation theorems |
| C135 | The same decoders against the portable and x86 ones and ITU-R | Equality where no saturation or wrap occurs, ±2 at 10 bits with RDM; witnesses below black and beyond the depth; partial |
| C136 | NEON decoders of semi-planar 10- and 12-bit images to RGB of the same depth (`Model/NeonNvDeep16`) | One loop with an invariant, portable code after it; lane by lane arithmetic for arbitrary words; frame and representation theorems |
| C137 | The same decoders against the portable one and ITU-R | Equality of buffers without RDM, ±2 with RDM; witnesses below black (RDM) and beyond the depth; partial |
| C138 | NEON encoders of 10- to 16-bit RGB to planar YCbCr: exact frame | Model of both kernels (32-bit sums; 16-bit sums with RDM) of `neon/rgb_to_yuv_p16.rs` and `rgb_to_yuv_p16_420.rs`; lanes, steps, rows, frames for every width |
| C139 | The same encoders against the portable arithmetic | Equality of luma and of chroma of one or two pixels, ±1 for four, without RDM; ±1 luma and floor of chroma with RDM; witnesses at 10 bits (RDM) and 16 bits; partial |
| C140 | NEON decoders of P010, P210 and P410 to 8-bit RGB, three modes (`Model/NeonNvP10`) | Loop with an invariant and a buffered tail; lane by lane arithmetic, both kernels; frame and representation theorems |
| C141 | The same decoders against the portable one and ITU-R | Equal or one below, within 1.54 of ITU-R, white and black exact; witnesses below black and for SMPTE 240M in the professional mode; partial |
| C142 | NEON decoders of 10- and 12-bit images with an alpha plane to 8-bit RGBA (`Model/NeonDeepAlpha`) | Lane by lane from C130, plus the alpha words; frame theorem for every width; 4:2:2 without padding only |
| C143 | The same decoders: colours and alpha | From C131; witnesses for big-endian alpha, white and below black; partial |
| C144 | NEON decoders of 10- to 14-bit images with an alpha plane to RGBA of the same depth (`Model/NeonDeepAlpha16`) | Lane by lane from C132, plus the alpha words; the handler is shown to do whole rows, so the portable code only redoes the last column of odd widths; frame theorem for every image |
| C145 | The same decoders: colours and alpha | Alpha from C144, false at the end of every 4:2:0 and 4:2:2 row; colours within one (two with rounding multiply-accumulate) of the portable code; partial |
| C146 | NEON decoder of P010 and P210 to 30-bit RGB (`Model/NeonAr30`; 10 bits) | Lane by lane as C140, the packed word as a bit identity; frame theorem for every image |
| C147 | The same decoder: fields and alpha | False for alpha, red and blue in every image; green within one of the portable code; partial |

## 3. What is modelled and what is not

Modelled (scalar code, validation and loops): every file directly under `src/`
except those listed below, and `sharpyuv/sharp_rgba_to_yuv.rs`.

Modelled vector code, in `avx2/` and in `sse/`: `yuv_to_rgba.rs`, `yuv_to_rgba422.rs`,
`yuv_to_rgba420.rs`, `yuv_nv_to_rgba.rs`, `yuv_nv_to_rgba422.rs`,
`yuv_nv_to_rgba420.rs`, `rgba_to_yuv.rs`, `rgba_to_yuv420.rs`, `rgb_to_nv.rs`,
`rgb_to_nv420.rs`, `yuv_to_rgba_alpha.rs`, `y_to_rgba.rs`, `y_to_rgba_alpha.rs`,
`rgb_to_y.rs`, `shuffle.rs`, `gbr_to_rgb.rs`, `yuv_to_yuy2.rs` (`yuv_to_yuv2.rs`),
`yuy2_to_yuv.rs`, `yuy2_to_rgb.rs`, `ayuv_to_rgba.rs` and `rdp_to_yuv.rs` (both AVX2 only),
`yuv_p16_to_rgb16.rs`, `yuv_p16_to_rgb_d16.rs` (AVX2), `yuv_p16_to_rgb8.rs`, `yuv_p16_to_rgb16_alpha.rs`, `yuv_p16_to_rgb8_alpha.rs`, `yuv_nv_p16_to_rgb.rs` (SSE4.1), `rgb_to_yuv_p16.rs`, `rgb_to_yuv_p16_420.rs`, `rgb_to_yuv_p16_d16.rs`, `rgb_to_yuv_p16_420_d16.rs` (AVX2), `rgb_to_yuv_prof.rs`, `rgb_to_yuv420_prof.rs`, `rgb_to_nv_prof.rs`, `rgb_to_nv420_prof.rs`, `rgba_to_yuv_fast.rs`, `rgba_to_yuv_fast420.rs`, `rgba_to_nv_fast.rs`, `rgba_to_nv_fast420.rs`, `yuv_nv_to_rgba_prof.rs`, `yuv_nv_to_rgba420_prof.rs`, `yuv_nv_to_rgba_fast.rs`, `yuv_nv_to_rgba_fast420.rs`, and the helpers of
`avx2_utils.rs` and `sse/utils.rs` they use; in `wasm32/`: `yuv_to_rgba.rs`,
`yuv_to_rgba420.rs`, `yuv_nv_to_rgba.rs`, `yuv_nv_to_rgba420.rs`, `y_to_rgb.rs` and
what they use of `utils.rs` and `transpose.rs`; in `neon/`: `yuv_to_rgba.rs`,
`yuv_to_rgba420.rs`, `yuv_nv_to_rgba.rs`, `yuv_nv_to_rgba420.rs`, `y_to_rgb.rs`,
`ycgco_to_rgb.rs`, `yuv_to_rgba_alpha.rs`, `shuffle.rs`, `rgb_to_y.rs`, `y_to_rgb_alpha.rs`, `gbr_to_rgb.rs`,
`yuv_to_yuy2.rs`, `yuy2_to_yuv.rs`, `yuy2_to_rgb.rs`, `ayuv_to_rgba.rs`, `yuv_nv_to_rgba_prof.rs`, `yuv_nv_to_rgba420_prof.rs`, `yuv_nv_to_rgbx_fast.rs`, `yuv_nv_to_rgbx_fast420.rs`, `yuv_p16_to_rgba8.rs`, `y_p16_to_rgba16.rs`, `yuv_p16_to_rgba16.rs`, `yuv_nv_p16_to_rgb.rs`, `deinterleave_10_bit_uv` of `yuv_nv_p10_to_rgba.rs`, `rgb_to_yuv_p16.rs`, `rgb_to_yuv_p16_420.rs`, `rgba_to_yuv.rs`, `rgba_to_yuv420.rs`, `rgba_to_nv.rs`, `rgba_to_nv420.rs`,
`rgb_to_yuv_prof.rs`, `rgb_to_yuv420_prof.rs`, `rgb_to_nv_prof.rs`, `rgb_to_nv420_prof.rs`,
`rgbx_to_yuv_fast.rs`, `rgbx_to_yuv_fast420.rs`, `rgbx_to_nv_fast.rs`, `rgbx_to_nv_fast420.rs` and
what they use of `utils.rs`.  The meaning given to each intrinsic in `Model/X86`,
`Model/Wasm`, `Model/Neon`, `Model/NeonEncode`, `Model/NeonYcgco`, `Model/NeonAlpha`, `Model/NeonShuffle`,
`Model/NeonGray`, `Model/NeonGbr`, `Model/NeonYuy2`, `Model/NeonYuyRgb`, `Model/NeonAyuv`, `Model/NeonNvModes`, `Model/NeonDeep8`, `Model/NeonGrayDeep`, `Model/NeonDeep16`, `Model/NeonNvDeep16`, `Model/NeonDeepEncode`, `Model/NeonNvP10`, `Model/NeonDeepAlpha`, `Model/NeonDeepAlpha16` and `Model/NeonAr30` is trusted (Intel's, the WebAssembly and Arm's
documentation, restated in Lean).

Not modelled:

* `sharpyuv/sharp_gamma.rs` (gamma tables computed with `powf`): tables are
  parameters of C44.
* `ycgcor_support.rs` (tables of an unreachable code path).
* All other vector code (`avx2`, `sse`, `neon` beyond the above, `avx512bw`):
  parameters with contracts.
* The external crates `fast_transpose`, `rayon` and `num_traits`.
* `lib.rs` feature gating, `Display` implementations, macros' documentation.
* Memory allocation failure and integer sizes other than 64 bit, except where a
  theorem says so (C02, C104, C105).

## 4. Findings: properties the code violates

Each is proved as a theorem with a concrete witness (names in `MANIFEST.json`).

1. A destination whose last row ends with the last pixel is accepted, but its
   last row is not written (C16); with 4:2:0 and odd height the last row lands in
   the row above; a one-row 4:2:0 image panics.
2. `check_interleaved_chroma_channel` doubles the width in `u32` and rejects
   padded chroma strides (C03).
3. `check_rgba_destination` wraps on 32-bit release builds (C02).
4. The packed 4:2:2 check ignores the stride; accepted frames lose rows or panic
   (C36), unpacked 4:2:0 frames of odd size are incomplete (C37), unpacking and
   packing skip pairs behind vector code (C35).
5. NV12 and I420 encoders differ at odd widths (C21).
6. In Fast mode BT.2020 full-range white wraps and gray is not neutral (C09, C12).
7. 10–16-bit 4:2:0 encode takes odd/odd luma from the row above; 4:2:2
   overwrites row padding; P010-style odd widths misplace a sample; 16-bit
   full-range BT.601 overflows `i32` (C30).
8. Bi-planar and planar 10–16-bit decoders round ties differently (C31).
9. 10/12-bit planar decode to 8 bits wraps instead of saturating, so white can
   become black, and passes the wrong depth to the coefficient search (C29).
10. YCgCo limited-range chroma uses the luma factor for single pixels (C34).
11. AR30: 12/14-bit planar sources are not reduced to 10 bits, P012 white
    overflows its field, 4:4:4 overwrites padding (C39).
12. 16-bit gray entry points validate nothing (C43).
13. 10–16-bit alpha decoders copy alpha without byte swap or shift; the 8-bit
    target 4:2:2 path runs over row padding and wraps (C51).
14. RDP decode overflows for samples outside the format (C42).
15. SMPTE 240 has `Kr`/`Kb` exchanged, BT.470 B/G other weights than H.273 (C49).
16. Ten public functions pass constants that contradict their names (C52).
17. Sharp YUV 4:2:2 bypasses the gamma tables in the last column of odd widths (C44).
18. Half floats: 16-bit levels from 65520 become infinity, values above one are
    not clamped to the depth, strides are checked modulo 2^32 (C47).
19. Rotate 90 then 270 depends on the external crate's transpose (C46).
20. The 8-pixel steps of the SSE4.1 decoders subtract the luma offset as signed
    bytes: luma 128…143 comes out up to 17 levels too bright and luma 0…15 white;
    which pixels are hit depends on their position in the row (C53, C55).
21. The vector decoders clamp luma to black before adding chroma, the scalar code
    does not: colours below black differ by up to 20 levels between processors
    (C53).

22. The SSE4.1 decoder of semi-planar 4:2:0 row pairs scales Cb with the
    coefficient of Cr in the last 1 to 16 columns (all columns of images up to 16
    wide): blue is off by up to 30 levels and differs from planar decoding (C57, C58).
23. The vector encoders leave the nominal limited range: 4:4:4 chroma 15 (yellow,
    cyan and others, five of six matrices) and FCC white luma 236 (C61, C67).
24. Premultiplying on SSE4.1 multiplies the unsaturated sums in 16 bits: opaque
    white becomes black, components below zero come back as large values and a
    colour can exceed alpha (C69, C70).
25. Premultiplying on AVX2 does the same from above in the last 1 to 32 pixels of a
    row: red 255 with alpha 200 becomes 101 (C69).
26. Premultiplying on AVX2 lowers opaque components from 128 up by one (C70).
27. Encoding to a grey image on AVX2 stores 0 in every second group of eight
    columns after the last multiple of 32 (columns 8–15 of a 16-pixel image): half
    of a white image becomes black (C73).
28. The signed subtraction of finding 20 is also in the grey decoders of SSE4.1, and
    for grey images with alpha on AVX2 processors too: samples below 16 become white
    (C71, C72).
29. Packing 4:4:4 into packed 4:2:2 on AVX2 averages into 16-bit words and stores
    them as bytes: in every block of 64 columns the odd pairs get chroma 0 and the
    even ones the mean of four samples from elsewhere in the block (C77).
30. The 16-column step of the SSE4.1 packer gives its last four pairs chroma 0 (C77).
31. After vector code the 4:4:4 packer skips twice as many pairs as were done: in a
    row of more than 16 columns the pairs after the last multiple of 16 are never
    written (C77).
32. The unpackers start their scalar code at a pair number equal to the number of
    columns done: for even widths above 16 the columns from the last multiple of 16
    on are never written, in all three samplings (C78).
33. The vector unpackers store 4:2:0 chroma for both rows of a pair, the scalar code
    for the first only: the chroma depends on the processor (C78).
34. The vector decoders of packed 4:2:2 take luma below the offset for the offset, the scalar
    code does not: limited-range frames with luma below 16 decode differently on different
    processors and within one row (C79, at most 19 steps).
35. `avx2/ayuv_to_rgba.rs`: the last pixels of a row (up to 32, so every pixel of an image at most 32
    wide) are premultiplied before they are saturated, as 16-bit products that wrap.  Components above
    255 turn dark (`c81_avx2_wraps`), negative ones come back, up to 255 with alpha 1
    (`c81_avx2_zero_comes_back`).  The 32-pixel steps are right.
36. `avx2/yuv_p16_to_rgb16.rs`, `sse/yuv_p16_to_rgb16.rs`: the luma offset is subtracted with
    saturation, so luma below black decodes as black whatever the chroma, 299 code values away from
    the portable code at 12 bits (`c84_violated_below_black`); words beyond the depth wrap in 16 bits
    where the portable code saturates, so a 10-bit luma of 8300 is black instead of white
    (`c84_violated_beyond_depth`).
37. **Translucent pixels in the planar 10/12-bit to 8-bit RGBA decoders on x86** (C86). The AVX2 and
    SSE4.1 kernels fill the alpha register with 16-bit words `2^d - 1` and store it as bytes, so in
    every column the vector code does (all but the last one to eight) alpha is 255 in even columns
    and 3 (10 bits) or 15 (12 bits) in odd ones. Proved for every image at least nine pixels wide
    (`c86_alpha_not_opaque`). The kernels saturate where the scalar code wraps (finding on C29), so
    a white line decodes to white with a black last column (`c86_violated_white`).
38. **Alpha of the wrong pixels in the 10/12-bit decoders with an alpha plane on AVX2** (C88, C90).
    `/repo/src/avx2/yuv_p16_to_rgb16_alpha.rs:272-273` and the 8-bit kernel load 16 alpha samples for
    a block of 32 pixels and use them for both halves, so pixels 16 to 31 of every block get the
    alpha of pixels 0 to 15. Proved for every image at least 33 pixels wide (`c88_avx2_alpha_shifted`,
    `c90_avx2_alpha_shifted`), with a witness.
39. **Stores outside the row in the 10/12-bit to 8-bit decoders with an alpha plane on x86** (C89).
    The 8-pixel loop of `/repo/src/sse/yuv_p16_to_rgb8_alpha.rs` stores 16 pixels. On SSE4.1 every
    width above eight that is not a multiple of eight, on AVX2 every width whose remainder modulo 16
    is above eight, makes the last store leave the destination row; for the last row of an unpadded
    buffer it is a heap overflow of up to 28 bytes reachable from safe code. Proved for every such
    image (`c89_stores_outside`).
40. **Large alpha words and luma below black** (C88, C90): the 8-bit kernels treat alpha words from
    32768 as negative (transparent instead of opaque), and the 32- and 16-pixel loops of AVX2 differ
    on luma below black (`c88_violated_position`).
41. **Wrong chroma in the 10- and 12-bit semi-planar decoders** (C92):
    `/repo/src/sse/yuv_nv_p16_to_rgb.rs:180-186` and `:214-217` unpack the 16-bit chroma words in
    32-bit pieces, so `_mm_madd_epi16` adds the products of two neighbouring chroma samples in some
    columns and of none in the others.  With 4:2:0 and 4:2:2 columns 2 and 3 of every four are grey
    and columns 0 and 1 have roughly double chroma; with 4:4:4 columns 1 and 3 of every eight are
    grey (`c92_grey_columns`, `c92_grey_columns_444`, `c92_violated`).

42. **Green of the wrong row in the SSE4.1 4:2:0 encoder of 10 to 14 bits** (C94):
    `/repo/src/sse/rgb_to_yuv_p16_420.rs:129` and `:243` compute the luma of the second row of every
    pair with `g_values0`, the green of the first (`c94_sse_420_green_of_row_above`). The scalar code has
    the different error of C30 in the same rows; AVX2 is right.
43. **16-bit full-range BT.601 luma wraps on AVX2** (C94): white is stored as black
    (`c94_avx2_16bit_white_is_black`); the scalar code panics in debug builds and wraps otherwise.
44. **4:2:0 chroma is averaged in two rounded steps** by the vector code of 10 to 16 bits, so it can be
    one code value from that of the scalar code (`c94_420_chroma_differs`).
45. **White becomes black in the fast mode with BT.2020 in full range**, on x86 too: the weights add up to
    129/128, the luma sum passes 32767; the vector code stores 0 (16-bit wrap, then saturation), the scalar
    code 0 or 1 (finding 6).  `c99_bt2020_wraps`, `c99_bt2020_white_black`.
46. **SMPTE 240 red is wrong in the professional semi-planar decoders** of AVX2 and SSE4.1 in limited
    range: the coefficient 34058 is put into a signed 16-bit element
    (`/repo/src/avx2/yuv_nv_to_rgba_prof.rs:87-91`), so Cr is weighted with −31478; the blue coefficient is
    split in two elements for this reason, the red one is not (`c101_smpte240_wrong_red`).
47. **Luma below black counts as black** in the vector code of both modes, not in the scalar code
    (`c101_dark_luma_differs`).
48. **Bright blue becomes black in the fast semi-planar decoders**: in limited range the 16-bit sum wraps
    from luma 238 on (`c103_bright_blue_wraps`), the scalar code saturates.
49. **NV24 and NV42 decode to wrong colours on WebAssembly with SIMD**: the kernel widens the low half of
    the Cr register and the high half of the Cb register and uses both for both samples
    (`/repo/src/wasm32/yuv_nv_to_rgba.rs`), so a red image becomes magenta and green
    (`c105_nv24_wrong_colours`, `c105_nv24_ignores_chroma`).
50. **Luma below black counts as black** in the vector columns on WebAssembly, so a pixel depends on its
    column (`c105_below_black_differs`).
51. **The last row of a 4:2:0 image of odd height has another green on AArch64**: pairs of rows subtract a
    rounded sum, a single row adds negated terms rounded one by one; an image of one colour becomes
    two-coloured (`c108_last_row_differs`, by two code values without the rounding instructions;
    `c108_last_row_differs_rdm`, by one with them, SMPTE 240M full range).
52. **Luma below black counts as black** in the NEON code (`c107_below_black_differs`).
53. **Encoding NV21 4:2:0 in the professional mode writes NV12 on AArch64**: `SemiPlanar420EncoderProfessional`
    passes the subsampling where the kernel expects the chroma order (`/repo/src/rgba_to_nv.rs:245-264`); red and
    blue are exchanged (`c111_nv21_is_nv12`, `c111_nv21_order_wrong`).  Of an odd height the last chroma row is
    right.
54. **BT.2020 white in full range has luma 255 with NEON and 1 without** in the fast mode (`c112_bt2020_white`);
    the NEON code is the one that is right.
55. **On AArch64 full-range YCgCo decodes to transparent pixels** (`/repo/src/neon/ycgco_to_rgb.rs:128` and 239,
    `vdupq_n_u8(0)` for the alpha): RGBA and BGRA from 4:2:2 and 4:4:4 everywhere, from 4:2:0 in the last row of an
    odd height (`c113_transparent`, `c113_transparent_witness`).
56. **On AArch64 sub-sampled images with an alpha plane lose the alpha of their last columns**
    (`/repo/src/neon/yuv_to_rgba_alpha.rs:411`, where the alpha of the last at most 16 pixels of a row is copied
    with the length of the chroma): the second half of them is fully transparent, whatever the alpha plane says,
    and black with premultiplication (`c114_alpha_lost`, `c114_alpha_lost_witness`).
57. **On AArch64 premultiplication exchanges the alphas of the two halves of 32 pixels**
    (`/repo/src/neon/yuv_to_rgba_alpha.rs:253`–260: the high half is multiplied by the first 16 alphas, the low
    half by the others, while the stores are in order): an opaque white pixel beside a transparent one 16 columns
    away becomes opaque black (`c115_wrong_alpha`, `c115_swapped_witness`).
58. **On AArch64 a shuffle from RGB or BGR to RGBA or BGRA makes the last pixels of every row transparent**
    (`/repo/src/neon/utils.rs:468`, `vdup_n_u8(0)`): the pixels after the last whole group of 16 get alpha 0, all
    others 255 (`c116_transparent`, `c116_transparent_witness`).
59. **On AArch64 without RDM limited-range grey lacks its offset** (`/repo/src/neon/rgb_to_y.rs:126` and 131: the
    bias is not multiplied by 2^13 and nothing is added for rounding): samples of whole groups of eight pixels are
    16 or 17 too dark, black is 0, while the last at most eight pixels of the row are right
    (`c117_no_offset`, `c117_no_offset_witness`).
60. **On AArch64 packing 4:4:4 averages the wrong columns** (`/repo/src/neon/yuv_to_yuy2.rs:75-76` and 119-124:
    the lower half of the loaded chroma is averaged with the upper half, where neighbouring samples were meant,
    as `vpadd` would do). In every frame of more than 16 columns chroma is smeared over 16 (or 8) columns, and
    the columns after the vector code stay unwritten as in C77 (`c121_wrong_columns`, `c121_unwritten`,
    `c121_witness`). The unpackers share both defects of the x86 ones (`c122_unwritten`, `c122_420_chroma_row`).
61. **On AArch64 packed 4:2:2 is decoded with another rounding** (`/repo/src/neon/yuy2_to_rgb.rs:108-153`: `vqrshrun_n_s16`
    rounds ties up, the scalar code and x86 round them down). Identical pixels of one row differ by one step
    before and after the last multiple of 16 columns (`c123_tie`); dark luma differs as on x86 (`c123_dark`).
62. **The red of SMPTE 240 in limited range is wrong on AArch64 too** in the professional mode
    (`/repo/src/neon/yuv_nv_to_rgba_prof.rs:69`, `yuv_nv_to_rgba420_prof.rs:66`: the coefficient 34058 is cast to `i16`):
    `c127_smpte240_wrong_red`.  In the fast mode bright blue wraps to 0 as on x86 (`c129_bright_blue_wraps`).
63. **On AArch64 too, 10-bit full-range white decoded to 8 bits turns black in the last one to eight columns**:
    the NEON code saturates, the portable code that finishes the row wraps (finding on C29): `c131_violated_white`.
    The alpha fault of the x86 kernels is absent (`c130_opaque`).
64. **On AArch64 the 10- to 16-bit grey decoders write outside the destination slice**: nothing is validated
    (finding on C50), and where the portable loop writes the pixels that fit, the NEON code stores eight pixels
    through an unchecked pointer.  Any limited-range image wider than eight pixels and any stride below eight
    pixels does it (`c133_violated`); in `c133_violated_witness` the store passes the end of the whole slice.
    A memory-safety fault reachable from safe code.
65. **On AArch64 the 10- to 16-bit decoders take luma below black for black, and at 10 bits with RDM a luma word
    beyond the depth for black**: luma 0 with Cr 3000 at 12 bits gives red 1713 against the portable 1414; the
    10-bit word 8300 gives black with RDM and white without (`c135_violated_below_black`,
    `c135_violated_beyond_depth`).
66. **On AArch64 with RDM a row of one colour below black decodes to two colours**: the semi-planar 10- and 12-bit
    decoders take luma below black for black in the vector columns and not in the last one to eight, so luma 0
    with Cr 700 at 10 bits gives red 338 in the first column and 263 in the last (`c137_violated_below_black`).
    Without RDM the kernel agrees with the portable code there, but a low-packed luma word of 40000 wraps to
    black (`c137_violated_beyond_depth`).
67. **On AArch64 with RDM, 10-bit limited-range encoding never stores a chroma sample below 257** (C139):
    `/repo/src/neon/rgb_to_yuv_p16.rs:460-461` and `:495-496` and `/repo/src/neon/rgb_to_yuv_p16_420.rs:408-419` limit Cb and
    Cr from below by `i_bias_y`, which is `bias_y * 4 + 1` (the start of the luma sum, before the final shift by two),
    instead of `bias_y`. Saturated yellow and cyan get Cb or Cr 257 instead of 64 (`c139_rdm_yellow_cyan`); for
    every colour the sample is at least 257 (`c139_rdm_chroma_floor`).
68. **On AArch64, 16-bit full-range BT.601 encodes white as luma 1** (C139): the sum is 65537, and
    `vshrn_n_u32` keeps its low 16 bits (`c139_16bit_white_is_black`; the portable code overflows there, C30, and
    AVX2 stores 0, C94). At 16 bits limited range the lower limit 4096 cuts BT.709 Cr and BT.2020 Cb, whose
    least values are 4094 (`c139_16bit_chroma_cut`).
69. **On AArch64, P010, P210 and P410 with SMPTE 240M in limited range turn red into cyan in the professional
    mode** (C141): the weight of Cr, 34158, is cast to `i16` and becomes negative
    (`/repo/src/neon/yuv_nv_p10_to_rgba_prof.rs:75`; `c141_violated_smpte240`).  In every mode these decoders cut the
    10-bit value down instead of rounding it (`c141_grey_one_below`), and luma below black counts as black
    (`c141_violated_below_black`).  The professional kernel adds
    `2 ^ 15 - 1` before a shift by 15 (line 88): it rounds up to 10 bits before it cuts down to 8.
70. **On AArch64, big-endian images with an alpha plane get another alpha in the last one to eight columns** (C143):
    the NEON kernel of the decoders to 8-bit RGBA brings the alpha words to native order
    (`/repo/src/neon/yuv_p16_to_rgba_alpha.rs:94-101`), the portable code behind it does not
    (`c143_violated_big_endian`; finding 13).
71. **On AArch64, 10- to 14-bit 4:2:0 and 4:2:2 images lose their alpha at the end of each row** (C145): of the last
    block of one to eight columns the decoders to RGBA of the same depth copy as many alpha words as there are chroma
    samples (`ux_diff` instead of `diff` in `/repo/src/neon/yuv_p16_to_rgba16_alpha.rs`), so the second half of the
    block is fully transparent, but for the last column of odd widths, which the portable code redoes
    (`c145_violated_lost_alpha`, `c145_violated_opaque`).
72. **On AArch64, P010 and P210 decode to 30-bit RGB with wrong alpha and wrong colours** (C147): `vzipq_4_ar30`
    (`/repo/src/neon/ar30_utils.rs:39-122`) has the constants of the two layouts exchanged.  `Ar30` gets its two alpha
    bits in the lowest bits of red, `Ra30` in the highest bits of its upper field, and alpha is 0 in every pixel of
    every image (`c147_violated_transparent`, `c147_violated_black`).  In `Ra30` red and blue are exchanged as well
    (`c147_violated_exchanged`).  The kernel adds `2 ^ 14 - 1` before a shift by 14, so it rounds up.

## 5. Trusted base

* Lean's kernel.  No axioms are added; `#print axioms` of every property theorem
  shows at most `propext`, `Classical.choice` and `Quot.sound`.  No `sorry`,
  `native_decide` or `bv_decide`.  `decide +kernel` is used for finite tables
  (all of a table, lifted by a lemma) and for concrete witnesses; it is checked
  by the kernel.
* The reading of the Rust source, recorded in the comment of each definition,
  including the meaning of slices, iterators, casts and intrinsics.
* For C52 the extraction of the dispatch table from the source text.

## 6. Testing the theorems

`seeded/LOG.jsonl` records edits of the model (wrong boundary, swapped argument,
dropped update, other constants) made in a scratch copy, and the theorems that
no longer proved.  Edits that survived led to the tightened theorems named there.
