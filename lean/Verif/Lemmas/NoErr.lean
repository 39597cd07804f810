import Verif.Model.NvToRgba
import Verif.Model.RgbaToYuv
/-! # Conversion loops never return an error

Errors come from the validators only; the loops either finish or panic. -/
namespace Verif

/-- The call does not return `Err`. -/
structure NoErr {α : Type} (o : Outcome α) : Prop where
  out : ∀ e, o ≠ .err e

theorem NoErr.ok {α : Type} {a : α} : NoErr (Outcome.ok a) := ⟨fun _ h => by cases h⟩
theorem NoErr.pure {α : Type} {a : α} : NoErr (pure a : Outcome α) := ⟨fun _ h => by cases h⟩
theorem NoErr.panic {α : Type} : NoErr (Outcome.panic : Outcome α) := ⟨fun _ h => by cases h⟩
theorem NoErr.bind {α β : Type} {o : Outcome α} {f : α → Outcome β} (h : NoErr o)
    (hf : ∀ a, NoErr (f a)) : NoErr (o >>= f) := by
  cases o with
  | ok a => exact hf a
  | err e => exact absurd rfl (h.out e)
  | panic => exact NoErr.panic
theorem NoErr.ite {α : Type} {c : Prop} [Decidable c] {a b : Outcome α} (ha : NoErr a)
    (hb : NoErr b) : NoErr (if c then a else b) := by split <;> assumption

theorem NoErr.chk32 {x : Int} : NoErr (Verif.chk32 x) := NoErr.ite .ok .panic
theorem NoErr.chk16 {x : Int} : NoErr (Verif.chk16 x) := NoErr.ite .ok .panic
theorem NoErr.add32 {a b : Int} : NoErr (Verif.add32 a b) := .chk32
theorem NoErr.sub32 {a b : Int} : NoErr (Verif.sub32 a b) := .chk32
theorem NoErr.mul32 {a b : Int} : NoErr (Verif.mul32 a b) := .chk32
theorem NoErr.idx {l : Buf} {i : Nat} : NoErr (Verif.idx l i) := by
  unfold Verif.idx; split
  · exact .ok
  · exact .panic
theorem NoErr.setIdx {l : Buf} {i v : Nat} : NoErr (Verif.setIdx l i v) := NoErr.ite .ok .panic
theorem NoErr.slice {l : Buf} {a b : Nat} : NoErr (Verif.slice l a b) := NoErr.ite .ok .panic
theorem NoErr.lastChunk {n : Nat} {l : Buf} : NoErr (Verif.lastChunk n l) :=
  NoErr.ite .panic (NoErr.ite .panic .ok)
theorem NoErr.lastElem {l : Buf} : NoErr (Verif.lastElem l) := by
  unfold Verif.lastElem; split
  · exact .ok
  · exact .panic
theorem NoErr.setLast {l : Buf} {v : Nat} : NoErr (Verif.setLast l v) := NoErr.ite .panic .ok
theorem NoErr.setLastPair {l c : Buf} : NoErr (Verif.setLastPair l c) := NoErr.ite .panic .ok
theorem NoErr.setRem {l : Buf} {v : Nat} : NoErr (Verif.setRem l v) := NoErr.ite .panic .ok
theorem NoErr.setLastY1 {first : Bool} {l : Buf} {v : Nat} : NoErr (Verif.setLastY1 first l v) := by
  unfold Verif.setLastY1; split
  · exact .setIdx
  · exact .setRem

theorem NoErr.forChunks {n : Nat} {g : Nat → Buf → Outcome Buf} (hg : ∀ i c, NoErr (g i c)) :
    ∀ {k j : Nat} {l : Buf}, NoErr (Verif.forChunks n g k j l)
  | 0, _, _ => .ok
  | _ + 1, _, _ => .bind (hg _ _) fun _ => .bind (NoErr.forChunks hg) fun _ => .pure
theorem NoErr.eachChunk {n s k : Nat} {g : Nat → Buf → Outcome Buf} {l : Buf}
    (hg : ∀ i c, NoErr (g i c)) : NoErr (Verif.eachChunk n s k g l) :=
  NoErr.ite .panic (.bind (.forChunks hg) fun _ => .pure)
theorem NoErr.onLastChunk {n : Nat} {g : Buf → Outcome Buf} {l : Buf}
    (hg : ∀ c, NoErr (g c)) : NoErr (Verif.onLastChunk n g l) :=
  NoErr.ite .panic (NoErr.ite .panic (.eachChunk fun _ c => hg c))
theorem NoErr.onRemainder {n : Nat} {g : Buf → Outcome Buf} {l : Buf}
    (hg : ∀ c, NoErr (g c)) : NoErr (Verif.onRemainder n g l) :=
  NoErr.ite .panic (.bind (hg _) fun _ => .pure)
theorem NoErr.onPrefix {b : Nat} {g : Buf → Outcome Buf} {l : Buf}
    (hg : ∀ c, NoErr (g c)) : NoErr (Verif.onPrefix l b g) :=
  NoErr.ite (.bind (hg _) fun _ => .pure) .panic
theorem NoErr.forGo {σ : Type} {body : Nat → σ → Outcome σ} (hb : ∀ j x, NoErr (body j x)) :
    ∀ {m j : Nat} {x : σ}, NoErr (Verif.forGo body m j x)
  | 0, _, _ => .ok
  | _ + 1, _, _ => .bind (hb _ _) fun _ => NoErr.forGo hb
theorem NoErr.forRange {σ : Type} {s k : Nat} {body : Nat → σ → Outcome σ} {x : σ}
    (hb : ∀ j x, NoErr (body j x)) : NoErr (Verif.forRange s k body x) := .forGo hb

theorem NoErr.rowPairs {guard : Bool} {w cn cx k : Nat} {p0 p1 : Nat → Buf → Outcome Buf} {pl : Buf → Outcome Buf}
    {row : Buf} (h0 : ∀ i c, NoErr (p0 i c)) (h1 : ∀ i c, NoErr (p1 i c)) (hl : ∀ c, NoErr (pl c)) :
    NoErr (Verif.rowPairs guard w cn cx k p0 p1 pl row) :=
  NoErr.ite .ok (.bind (.eachChunk fun _ _ => .bind (h0 _ _) fun _ => .bind (h1 _ _) fun _ => .pure)
    fun _ => NoErr.ite .pure (.onLastChunk hl))
theorem NoErr.rowPairsRem {guard : Bool} {w cn cx k : Nat} {p0 p1 : Nat → Buf → Outcome Buf}
    {pl : Buf → Outcome Buf} {row : Buf} (h0 : ∀ i c, NoErr (p0 i c)) (h1 : ∀ i c, NoErr (p1 i c))
    (hl : ∀ c, NoErr (pl c)) : NoErr (Verif.rowPairsRem guard w cn cx k p0 p1 pl row) :=
  NoErr.ite .ok (.bind (.eachChunk fun _ _ => .bind (h0 _ _) fun _ => .bind (h1 _ _) fun _ => .pure)
    fun _ => NoErr.ite .pure (.onRemainder fun _ => .onPrefix hl))
theorem NoErr.rowSingles {guard : Bool} {w cn cx k : Nat} {p : Nat → Buf → Outcome Buf}
    {row : Buf} (h0 : ∀ i c, NoErr (p i c)) : NoErr (Verif.rowSingles guard w cn cx k p row) :=
  NoErr.ite .ok (.eachChunk h0)

/-- Works through a `do` block of steps that never return an error; the listed lemmas cover
steps specific to the block. -/
syntax "no_err" (" [" term,* "]")? : tactic
macro_rules
  | `(tactic| no_err) => `(tactic| no_err [])
  | `(tactic| no_err [$ts,*]) => `(tactic| with_reducible repeat' (first
    | assumption
    $[| apply $ts]*
    | exact NoErr.ok | exact NoErr.pure | exact NoErr.panic
    | exact NoErr.add32 | exact NoErr.sub32 | exact NoErr.mul32 | exact NoErr.chk32
    | exact NoErr.chk16
    | exact NoErr.idx | exact NoErr.setIdx | exact NoErr.slice | exact NoErr.lastChunk
    | exact NoErr.lastElem | exact NoErr.setLast | exact NoErr.setLastPair | exact NoErr.setRem
    | exact NoErr.setLastY1
    | apply NoErr.bind
    | apply NoErr.ite
    | apply NoErr.eachChunk | apply NoErr.onLastChunk | apply NoErr.onRemainder
    | apply NoErr.onPrefix | apply NoErr.forRange | apply NoErr.rowPairs | apply NoErr.rowPairsRem
    | apply NoErr.rowSingles
    | split
    | intro _))

theorem NoErr.qrshr {p bd : Nat} {v : Int} : NoErr (Verif.qrshr p bd v) := by
  unfold Verif.qrshr; no_err
theorem NoErr.qrshrN {p : Nat} {v mx : Int} : NoErr (Verif.qrshrN p v mx) := by
  unfold Verif.qrshrN; no_err
theorem NoErr.divBy255 {v : Nat} : NoErr (Verif.divBy255 v) := by
  unfold Verif.divBy255; no_err
theorem NoErr.storePix {ch : Channels} {c : Buf} {r g b a : Nat} :
    NoErr (Verif.storePix ch c r g b a) := by
  unfold Verif.storePix; no_err
theorem NoErr.decodeRow {q : Int → Outcome Int} (hq : ∀ v, NoErr (q v)) {t : InvCoef}
    {by' bu y u v : Nat} : NoErr (Verif.decodeRow q t by' bu y u v) := by
  unfold Verif.decodeRow; no_err [hq]
theorem NoErr.decodeTwoRow {q : Int → Outcome Int} (hq : ∀ v, NoErr (q v)) {t : InvCoef}
    {by' bu y u v : Nat} : NoErr (Verif.decodeTwoRow q t by' bu y u v) := by
  unfold Verif.decodeTwoRow; no_err [hq]

theorem NoErr.encodeSum {p : Nat} {k l m n x y z : Int} :
    NoErr (Verif.encodeSum p k l m n x y z) := by unfold Verif.encodeSum; no_err
theorem NoErr.encodeY {p : Nat} {t : FwdCoef} {b : Nat} {x y z : Int} :
    NoErr (Verif.encodeY p t b x y z) := by unfold Verif.encodeY; no_err [NoErr.encodeSum]
theorem NoErr.encodeCb {p : Nat} {t : FwdCoef} {b : Nat} {x y z : Int} :
    NoErr (Verif.encodeCb p t b x y z) := by unfold Verif.encodeCb; no_err [NoErr.encodeSum]
theorem NoErr.encodeCr {p : Nat} {t : FwdCoef} {b : Nat} {x y z : Int} :
    NoErr (Verif.encodeCr p t b x y z) := by unfold Verif.encodeCr; no_err [NoErr.encodeSum]

section decode
variable {guard : Bool} {w cn : Nat} {put put2 : Nat → Nat → Nat → Buf → Outcome Buf}
  (hput : ∀ y u v c, NoErr (put y u v c))
include hput

theorem NoErr.halvedRow {hd : RowHandler} (hh : ∀ y u v r, NoErr (hd y u v r)) {y u v row : Buf} :
    NoErr (Verif.halvedRow guard w cn put hd y u v row) := by
  unfold Verif.halvedRow; no_err [hput, hh]
theorem NoErr.halvedSlice {hd : RowHandler} (hh : ∀ y u v r, NoErr (hd y u v r)) {y u v row : Buf} :
    NoErr (Verif.halvedSlice guard w cn put hd y u v row) := by
  unfold Verif.halvedSlice; no_err [NoErr.halvedRow hput hh]
theorem NoErr.doubledRow {hd : RowHandler420} (hh : ∀ y0 y1 u v r0 r1, NoErr (hd y0 y1 u v r0 r1))
    {y0 y1 u v r0 r1 : Buf} : NoErr (Verif.doubledRow w cn put hd y0 y1 u v r0 r1) := by
  unfold Verif.doubledRow; no_err [hput, hh]
theorem NoErr.decode444 {guard : Bool} {hd : RowHandler} (hh : ∀ y u v r, NoErr (hd y u v r)) {i : Planar}
    {rgba : Buf} {stride : Nat} : NoErr (Verif.decode444 guard cn put hd i rgba stride) := by
  unfold Verif.decode444; no_err [hput, hh]
theorem NoErr.decode422 {hd : RowHandler} (hh : ∀ y u v r, NoErr (hd y u v r)) {i : Planar}
    {rgba : Buf} {stride : Nat} : NoErr (Verif.decode422 guard cn put hd i rgba stride) := by
  unfold Verif.decode422; no_err [NoErr.halvedSlice hput hh]
theorem NoErr.decode420 (hput2 : ∀ y u v c, NoErr (put2 y u v c))
    {hd : RowHandler} (hh : ∀ y u v r, NoErr (hd y u v r))
    {hd2 : RowHandler420} (hh2 : ∀ y0 y1 u v r0 r1, NoErr (hd2 y0 y1 u v r0 r1)) {i : Planar}
    {rgba : Buf} {stride : Nat} : NoErr (Verif.decode420 cn put put2 hd hd2 i rgba stride) := by
  unfold Verif.decode420; no_err [NoErr.halvedSlice hput hh, NoErr.doubledRow hput2 hh2]

variable {o : NVOrder}
theorem NoErr.nvPair {y uv : Buf} {e i : Nat} {c : Buf} :
    NoErr (Verif.nvPair o put y uv e i c) := by
  unfold Verif.nvPair; no_err [hput]
theorem NoErr.nvTail {y uv : Buf} {c : Buf} : NoErr (Verif.nvTail o put y uv c) := by
  unfold Verif.nvTail; no_err [hput]
theorem NoErr.nvHalvedRow {hd : RowHandlerNV} (hh : ∀ y u r, NoErr (hd y u r)) {y uv row : Buf} :
    NoErr (Verif.nvHalvedRow guard w cn o put hd y uv row) := by
  unfold Verif.nvHalvedRow; no_err [hh, NoErr.nvPair hput, NoErr.nvTail hput]
theorem NoErr.nvHalvedSlice {hd : RowHandlerNV} (hh : ∀ y u r, NoErr (hd y u r)) {y uv row : Buf} :
    NoErr (Verif.nvHalvedSlice guard w cn o put hd y uv row) := by
  unfold Verif.nvHalvedSlice; no_err [NoErr.nvHalvedRow hput hh]
theorem NoErr.nvDoubledRow {hd : RowHandlerNV420} (hh : ∀ y0 y1 u r0 r1, NoErr (hd y0 y1 u r0 r1))
    {y0 y1 uv r0 r1 : Buf} : NoErr (Verif.nvDoubledRow w cn o put hd y0 y1 uv r0 r1) := by
  unfold Verif.nvDoubledRow; no_err [hh, NoErr.nvPair hput, NoErr.nvTail hput]
theorem NoErr.nvDecode444 {guard : Bool} {hd : RowHandlerNV} (hh : ∀ y u r, NoErr (hd y u r)) {i : BiPlanar}
    {rgba : Buf} {stride : Nat} : NoErr (Verif.nvDecode444 guard cn o put hd i rgba stride) := by
  unfold Verif.nvDecode444; no_err [hput, hh]
theorem NoErr.nvDecode422 {hd : RowHandlerNV} (hh : ∀ y u r, NoErr (hd y u r)) {i : BiPlanar}
    {rgba : Buf} {stride : Nat} : NoErr (Verif.nvDecode422 guard cn o put hd i rgba stride) := by
  unfold Verif.nvDecode422; no_err [NoErr.nvHalvedSlice hput hh]
theorem NoErr.nvDecode420 (hput2 : ∀ y u v c, NoErr (put2 y u v c))
    {hd : RowHandlerNV} (hh : ∀ y u r, NoErr (hd y u r))
    {hd2 : RowHandlerNV420} (hh2 : ∀ y0 y1 u r0 r1, NoErr (hd2 y0 y1 u r0 r1)) {i : BiPlanar}
    {rgba : Buf} {stride : Nat} : NoErr (Verif.nvDecode420 cn o put put2 hd hd2 i rgba stride) := by
  unfold Verif.nvDecode420; no_err [NoErr.nvHalvedSlice hput hh, NoErr.nvDoubledRow hput2 hh2]
end decode

/-- None of the block functions of an encoder returns an error. -/
structure BlocksNoErr (E : PixelBlocks) : Prop where
  one : ∀ c, NoErr (E.one c)
  pair : ∀ c, NoErr (E.pair c)
  tail : ∀ c, NoErr (E.tail c)
  quad : ∀ c d, NoErr (E.quad c d)
  tail2 : ∀ c d, NoErr (E.tail2 c d)

theorem NoErr.readRgb {ch : Channels} {c : Buf} : NoErr (Verif.readRgb ch c) := by
  unfold Verif.readRgb; no_err
theorem NoErr.avg2 {r a b : Int} : NoErr (Verif.avg2 r a b) := by unfold Verif.avg2; no_err
theorem NoErr.avg4 {a b c d : Int} : NoErr (Verif.avg4 a b c d) := by unfold Verif.avg4; no_err
theorem NoErr.lumaOf {cast : Int → Nat} {p : Nat} {t : FwdCoef} {b : Nat} {px : Int × Int × Int} :
    NoErr (Verif.lumaOf cast p t b px) := by unfold Verif.lumaOf; no_err [NoErr.encodeY]
theorem NoErr.chromaOf {cast : Int → Nat} {p : Nat} {t : FwdCoef} {b : Nat} {x y z : Int} :
    NoErr (Verif.chromaOf cast p t b x y z) := by
  unfold Verif.chromaOf; no_err [NoErr.encodeCb, NoErr.encodeCr]

theorem linBlocks_noErr {cast : Int → Nat} {rnd : Int} {bug11 : Bool} {p : Nat} {t : FwdCoef}
    {c : ChromaRange} {ch : Channels} : BlocksNoErr (linBlocks cast rnd bug11 p t c ch) := by
  constructor <;> intros <;> simp only [linBlocks] <;>
    no_err [NoErr.readRgb, NoErr.lumaOf, NoErr.chromaOf, NoErr.avg2, NoErr.avg4]

theorem NoErr.rows3 {ny nu nv k : Nat} {g : Nat → Buf → Buf → Buf → Outcome (Buf × Buf × Buf)}
    (hg : ∀ r a b c, NoErr (g r a b c)) {y u v : Buf} : NoErr (Verif.rows3 ny nu nv k g y u v) := by
  unfold Verif.rows3; no_err [hg]
theorem NoErr.rows2 {ny nu k : Nat} {g : Nat → Buf → Buf → Outcome (Buf × Buf)}
    (hg : ∀ r a b, NoErr (g r a b)) {y u : Buf} : NoErr (Verif.rows2 ny nu k g y u) := by
  unfold Verif.rows2; no_err [hg]
theorem NoErr.onRow3 {w cw cn : Nat} {f : Buf → Buf → Buf → Buf → Outcome (Buf × Buf × Buf)}
    (hf : ∀ a b c d, NoErr (f a b c d)) {y u v r : Buf} : NoErr (Verif.onRow3 w cw cn f y u v r) := by
  unfold Verif.onRow3; no_err [hf]
theorem NoErr.onRow2 {w cw cn : Nat} {f : Buf → Buf → Buf → Outcome (Buf × Buf)}
    (hf : ∀ a b c, NoErr (f a b c)) {y u r : Buf} : NoErr (Verif.onRow2 w cw cn f y u r) := by
  unfold Verif.onRow2; no_err [hf]

section encode
variable {w cn : Nat} {E : PixelBlocks} (hE : BlocksNoErr E)
include hE

theorem NoErr.encHalvedRow {hd : RowEncoder} (hh : ∀ y u v r, NoErr (hd y u v r)) {y u v r : Buf} :
    NoErr (Verif.encHalvedRow w cn E hd y u v r) := by
  unfold Verif.encHalvedRow; no_err [hh, hE.pair, hE.tail]
theorem NoErr.encDoubledRow {skip : Bool} {hd : RowEncoder420}
    (hh : ∀ y0 y1 u v r0 r1, NoErr (hd y0 y1 u v r0 r1)) {y0 y1 u v r0 r1 : Buf} :
    NoErr (Verif.encDoubledRow skip w cn E hd y0 y1 u v r0 r1) := by
  unfold Verif.encDoubledRow; no_err [hh, hE.quad, hE.tail2]
theorem NoErr.encFullRow {hd : RowEncoder} (hh : ∀ y u v r, NoErr (hd y u v r)) {y u v r : Buf} :
    NoErr (Verif.encFullRow w cn E hd y u v r) := by
  unfold Verif.encFullRow; no_err [hh, hE.one]
theorem NoErr.encode444 {hd : RowEncoder} (hh : ∀ y u v r, NoErr (hd y u v r)) {i : Planar}
    {rgba : Buf} {stride : Nat} : NoErr (Verif.encode444 cn E hd i rgba stride) := by
  unfold Verif.encode444; no_err [NoErr.rows3, NoErr.encFullRow hE hh]
theorem NoErr.encode422 {sl : Bool} {hd : RowEncoder} (hh : ∀ y u v r, NoErr (hd y u v r))
    {i : Planar} {rgba : Buf} {stride : Nat} :
    NoErr (Verif.encode422 sl cn E hd i rgba stride) := by
  unfold Verif.encode422; no_err [NoErr.rows3, NoErr.onRow3, NoErr.encHalvedRow hE hh]
theorem NoErr.encLast420 {hd : RowEncoder} (hh : ∀ y u v r, NoErr (hd y u v r)) {a b c : Nat}
    {rgba : Buf} {stride : Nat} {y u v : Buf} :
    NoErr (Verif.encLast420 w cn E hd a b c rgba stride y u v) := by
  unfold Verif.encLast420; no_err [NoErr.onRow3, NoErr.encHalvedRow hE hh]
theorem NoErr.encode420 {skip : Bool} {hd : RowEncoder} (hh : ∀ y u v r, NoErr (hd y u v r))
    {hd2 : RowEncoder420} (hh2 : ∀ y0 y1 u v r0 r1, NoErr (hd2 y0 y1 u v r0 r1)) {i : Planar}
    {rgba : Buf} {stride : Nat} : NoErr (Verif.encode420 skip cn E hd hd2 i rgba stride) := by
  unfold Verif.encode420
  no_err [NoErr.rows3, NoErr.encDoubledRow hE hh2, NoErr.encLast420 hE hh]

variable {o : NVOrder}
theorem NoErr.nvEncHalvedRow {hd : RowEncoderNV} (hh : ∀ y u r, NoErr (hd y u r)) {y u r : Buf} :
    NoErr (Verif.nvEncHalvedRow w cn o E hd y u r) := by
  unfold Verif.nvEncHalvedRow; no_err [hh, hE.pair, hE.tail]
theorem NoErr.nvEncDoubledRow {first : Bool} {hd : RowEncoderNV420}
    (hh : ∀ y0 y1 u r0 r1, NoErr (hd y0 y1 u r0 r1)) {y0 y1 u r0 r1 : Buf} :
    NoErr (Verif.nvEncDoubledRow first w cn o E hd y0 y1 u r0 r1) := by
  unfold Verif.nvEncDoubledRow; no_err [hh, hE.quad, hE.tail2]
theorem NoErr.nvEncFullRow {hd : RowEncoderNV} (hh : ∀ y u r, NoErr (hd y u r)) {y u r : Buf} :
    NoErr (Verif.nvEncFullRow w cn o E hd y u r) := by
  unfold Verif.nvEncFullRow; no_err [hh, hE.one]
theorem NoErr.nvEncode444 {hd : RowEncoderNV} (hh : ∀ y u r, NoErr (hd y u r)) {i : BiPlanar}
    {rgba : Buf} {stride : Nat} : NoErr (Verif.nvEncode444 cn o E hd i rgba stride) := by
  unfold Verif.nvEncode444; no_err [NoErr.rows2, NoErr.nvEncFullRow hE hh]
theorem NoErr.nvEncode422 {hd : RowEncoderNV} (hh : ∀ y u r, NoErr (hd y u r)) {i : BiPlanar}
    {rgba : Buf} {stride : Nat} : NoErr (Verif.nvEncode422 cn o E hd i rgba stride) := by
  unfold Verif.nvEncode422; no_err [NoErr.rows2, NoErr.onRow2, NoErr.nvEncHalvedRow hE hh]
theorem NoErr.nvEncLast420 {hd : RowEncoderNV} (hh : ∀ y u r, NoErr (hd y u r)) {a b : Nat}
    {rgba : Buf} {stride : Nat} {y u : Buf} :
    NoErr (Verif.nvEncLast420 w cn o E hd a b rgba stride y u) := by
  unfold Verif.nvEncLast420; no_err [NoErr.onRow2, NoErr.nvEncHalvedRow hE hh]
theorem NoErr.nvEncode420 {first : Bool} {hd : RowEncoderNV} (hh : ∀ y u r, NoErr (hd y u r))
    {hd2 : RowEncoderNV420} (hh2 : ∀ y0 y1 u r0 r1, NoErr (hd2 y0 y1 u r0 r1)) {i : BiPlanar}
    {rgba : Buf} {stride : Nat} : NoErr (Verif.nvEncode420 first cn o E hd hd2 i rgba stride) := by
  unfold Verif.nvEncode420
  no_err [NoErr.rows2, NoErr.nvEncDoubledRow hE hh2, NoErr.nvEncLast420 hE hh]
end encode

/-- Two validators followed by a computation that returns no error: the errors are those of the
validators. -/
theorem err_iff_of {α : Type} {a b : Outcome Unit} {rest : Outcome α} (h : NoErr rest)
    (e : YuvError) :
    ((do a; b; rest : Outcome α) = .err e) ↔ ((do a; b : Outcome Unit) = .err e) := by
  cases a with
  | err e' => constructor <;> intro h <;> cases h <;> rfl
  | panic => constructor <;> intro h <;> cases h
  | ok =>
    cases b with
    | err e' => constructor <;> intro h <;> cases h <;> rfl
    | panic => constructor <;> intro h <;> cases h
    | ok => exact ⟨fun h' => absurd h' (h.out e), fun h' => by cases h'⟩
end Verif
