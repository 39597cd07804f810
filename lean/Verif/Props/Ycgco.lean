import Verif.Spec.Ycgco
import Verif.Props.Alpha
import Verif.Props.Identity
import Verif.Props.PlanarEncode
/-!
# C34: YCgCo
-/
namespace Verif
open Spec

/-! ## Decoder arithmetic -/

/-- The depths YCgCo exists at. -/
def CgDepth (d : Nat) : Prop := d = 8 ∨ d = 10 ∨ d = 12

theorem CgDepth.depth {d : Nat} (h : CgDepth d) : Depth d := by
  rcases h with h | h | h <;> simp [Depth, h]

theorem cgcoInv_table : ∀ d ∈ [8, 10, 12], ∀ rg ∈ allRange,
    (d, rg, cgcoInv d (getYuvRange d rg).rangeY, cgcoInv d (getYuvRange d rg).rangeUv,
      (getYuvRange d rg).biasY, (getYuvRange d rg).biasUv) ∈
    [(8, YuvRange.full, (8192 : Int), (8192 : Int), 0, 128), (10, .full, 8192, 8192, 0, 512),
      (12, .full, 8192, 8192, 0, 2048), (8, .limited, 9539, 9326, 16, 128),
      (10, .limited, 9567, 9353, 64, 512), (12, .limited, 9574, 9360, 256, 2048)] := by
  decide +kernel

theorem cgcoInv_cases {d : Nat} (hd : CgDepth d) (rg : YuvRange) :
    (d, rg, cgcoInv d (getYuvRange d rg).rangeY, cgcoInv d (getYuvRange d rg).rangeUv,
      (getYuvRange d rg).biasY, (getYuvRange d rg).biasUv) ∈
    [(8, YuvRange.full, (8192 : Int), (8192 : Int), 0, 128), (10, .full, 8192, 8192, 0, 512),
      (12, .full, 8192, 8192, 0, 2048), (8, .limited, 9539, 9326, 16, 128),
      (10, .limited, 9567, 9353, 64, 512), (12, .limited, 9574, 9360, 256, 2048)] :=
  cgcoInv_table d (by simpa [CgDepth] using hd) rg (mem_allRange rg)

theorem cgco_parts {d : Nat} (hd : CgDepth d) (rg : YuvRange) {y c : Nat} (hy : y < 2 ^ d)
    (hc : c < 2 ^ d) :
    (getYuvRange d rg).biasY ≤ 2048 ∧ (getYuvRange d rg).biasUv ≤ 2048 ∧
    -100000000 ≤ cgcoLumaPart d rg y ∧ cgcoLumaPart d rg y ≤ 100000000 ∧
    -100000000 ≤ cgcoChromaPart d rg c ∧ cgcoChromaPart d rg c ≤ 100000000 := by
  have := cgcoInv_cases hd rg
  unfold cgcoLumaPart cgcoChromaPart
  simp only [List.mem_cons, Prod.mk.injEq, List.not_mem_nil, or_false] at this
  rcases this with h | h | h | h | h | h <;> obtain ⟨rfl, rfl, e1, e2, e3, e4⟩ := h <;>
    rw [e1, e2, e3, e4] <;> norm_num at hy hc ⊢ <;> omega

theorem narrowDiff_small {d y b : Nat} (hd : d ≠ 16) (hy : y < 4096) (hb : b ≤ 2048) :
    narrowDiff d y b = .ok ((y : Int) - b) := by
  have e : asI16 (y : Int) = y := by unfold asI16; omega
  unfold narrowDiff chk16
  rw [if_neg hd, e, if_pos (by omega)]

theorem putCgco_ok {d : Nat} (hd : CgDepth d) (rg : YuvRange) (ch : Channels) (a : Nat)
    {y u v : Nat} {px : Buf} (hy : y < 2 ^ d) (hu : u < 2 ^ d) (hv : v < 2 ^ d)
    (hp : px.length = ch.count) :
    putCgco d (getYuvRange d rg) ch a y u v px = .ok (cgcoPixel d ch rg a y u v) := by
  obtain ⟨b1, b2, l1, l2, u1, u2⟩ := cgco_parts hd rg hy hu
  obtain ⟨-, -, -, -, v1, v2⟩ := cgco_parts hd rg hy hv
  have hlt : 2 ^ d ≤ 4096 := by rcases hd with h | h | h <;> subst h <;> decide
  have h16 : d ≠ 16 := by unfold CgDepth at hd; omega
  have eL : ((y : Int) - (getYuvRange d rg).biasY) * cgcoInv d (getYuvRange d rg).rangeY
    = cgcoLumaPart d rg y := rfl
  have eU : ((u : Int) - (getYuvRange d rg).biasUv) * cgcoInv d (getYuvRange d rg).rangeUv
    = cgcoChromaPart d rg u := rfl
  have eV : ((v : Int) - (getYuvRange d rg).biasUv) * cgcoInv d (getYuvRange d rg).rangeUv
    = cgcoChromaPart d rg v := rfl
  unfold putCgco
  rw [narrowDiff_small h16 (by omega) b1, narrowDiff_small h16 (by omega) b2,
    narrowDiff_small h16 (by omega) b2]
  simp only [Outcome.bind_ok]
  rw [mul32_ok (by rw [eL]; omega) (by rw [eL]; omega), mul32_ok (by rw [eU]; omega) (by rw [eU]; omega),
    mul32_ok (by rw [eV]; omega) (by rw [eV]; omega), eL, eU, eV]
  unfold cgcoPixel cgcoR cgcoG cgcoB
  generalize cgcoLumaPart d rg y = Y at *
  generalize cgcoChromaPart d rg u = U at *
  generalize cgcoChromaPart d rg v = V at *
  simp only [Outcome.bind_ok]
  rw [sub32_ok (by omega) (by omega)]
  simp only [Outcome.bind_ok]
  rw [add32_ok (by omega) (by omega)]
  simp only [Outcome.bind_ok]
  rw [qrshr_ok (by norm_num; omega) (by norm_num; omega)]
  simp only [Outcome.bind_ok]
  rw [sub32_ok (by omega) (by omega)]
  simp only [Outcome.bind_ok]
  rw [qrshr_ok (by norm_num; omega) (by norm_num; omega)]
  simp only [Outcome.bind_ok]
  rw [add32_ok (by omega) (by omega)]
  simp only [Outcome.bind_ok]
  rw [qrshr_ok (by norm_num; omega) (by norm_num; omega)]
  simp only [Outcome.bind_ok]
  have e : ∀ x : Int, asSample d (qr 13 d x) = cgcoSat d x := by
    intro x
    obtain ⟨s0, s1⟩ := sat_bounds d hd.depth ((x + 4095) / 8192)
    exact asSample_eq hd.depth s0 s1
  rw [e, e, e, storePix_ok hp]

theorem cgcoPixel_length (d : Nat) (ch : Channels) (rg : YuvRange) (a y u v : Nat) :
    (cgcoPixel d ch rg a y u v).length = ch.count := layout_length ..

/-! ## Decoding -/

/-- C34, decode: decoding a good YCgCo image into a good destination succeeds, writes exactly the
`width × height` pixels, and every pixel is the decoding of the luma sample at `(x, y)` and the
chroma samples covering it, with opaque alpha. -/
theorem c34_decode (d : Nat) (hD : CgDepth d) (ch : Channels) (s : Sampling) (i : Planar) (rgba : Buf)
    (stride : Nat) (rg : YuvRange) (hi : GoodPlanar i s (2 ^ d))
    (hdst : GoodDst rgba.length stride i.width i.height ch.count) :
    ∃ out, ycgcoToRgbx x64 d ch s i rgba stride rg = .ok out ∧
      FrameSpec out rgba stride i.width i.height ch.count (fun x y =>
        cgcoPixel d ch rg (2 ^ d - 1) (Planar.Y i x y) (Planar.U i s x y) (Planar.V i s x y)) := by
  have hr := hi.rows
  have hcn := count_pos ch
  have hst : 0 < stride := Nat.lt_of_lt_of_le (Nat.mul_pos hr.wpos hcn) hdst.cols_le
  have p1 : PutOk (2 ^ d) ch.count (putCgco d (getYuvRange d rg) ch (2 ^ d - 1))
      (cgcoPixel d ch rg (2 ^ d - 1)) :=
    ⟨fun y u v c hy hu hv hc => putCgco_ok hD rg ch _ hy hu hv hc, fun _ _ _ => layout_length ..⟩
  have fin : ∀ o : Outcome Buf, (∃ out, o = .ok out ∧
      FrameRel out rgba stride i.width i.height ch.count (fun x y p =>
        p = cgcoPixel d ch rg (2 ^ d - 1) (Planar.Y i x y) (Planar.U i s x y) (Planar.V i s x y) ∨
        False)) → ∃ out, o = .ok out ∧
      FrameSpec out rgba stride i.width i.height ch.count (fun x y =>
        cgcoPixel d ch rg (2 ^ d - 1) (Planar.Y i x y) (Planar.U i s x y) (Planar.V i s x y)) :=
    fun o ⟨out, e, h⟩ => ⟨out, e, frameRel_or_eq h fun x y p _ _ hp => hp.resolve_right id⟩
  unfold ycgcoToRgbx
  rw [hdst.accepted hi.wpos hi.hpos hi.w32 hi.h32 hcn (count_le ch), hi.accepted]
  simp only [Outcome.bind_ok]
  cases s with
  | yuv444 =>
    exact fin _ ((decode444_rel hr hcn p1 (noSimd_ok (R := fun _ _ _ _ => False)) hdst.cols_le
      hdst.full).spec hcn hst hdst.cols_le hdst.full.1)
  | yuv422 =>
    exact fin _ ((decode422_rel hr hcn p1 (noSimd_ok (R := fun _ _ _ _ => False)) hdst.cols_le
      hdst.full).spec hcn hst hdst.cols_le hdst.full.1)
  | yuv420 =>
    exact fin _ ((decode420_rel hr hcn p1 p1 (noSimd_ok (R := fun _ _ _ _ => False)) noSimd420_ok
      hdst.cols_le hdst.full).spec hcn hst hdst.cols_le hdst.full.1)

/-- C34, decode with an alpha plane: alpha is copied. -/
theorem c34_alpha_decode (d : Nat) (hD : CgDepth d) (ch : Channels) (hch : ch = .rgba ∨ ch = .bgra)
    (s : Sampling) (i : PlanarAlpha) (rgba : Buf) (stride : Nat) (rg : YuvRange)
    (hi : GoodPlanarAlpha i s (2 ^ d))
    (hdst : GoodDst rgba.length stride i.width i.height ch.count) :
    ∃ out, ycgcoAlphaToRgbx x64 d ch s i rgba stride rg = .ok out ∧
      FrameSpec out rgba stride i.width i.height ch.count (fun x y =>
        let j := opaqueImage i
        cgcoPixel d ch rg (alphaAt i x y) (Planar.Y j x y) (Planar.U j s x y) (Planar.V j s x y)) := by
  have ha : ¬ ch.hasAlpha = false := by rcases hch with rfl | rfl <;> decide
  have p1 : AlphaPutOk (2 ^ d) ch.count (fun y u v a => putCgco d (getYuvRange d rg) ch a y u v)
      (fun y u v a => cgcoPixel d ch rg a y u v) :=
    ⟨fun y u v a c hy hu hv _ hc => putCgco_ok hD rg ch a hy hu hv hc, fun _ _ _ _ => layout_length ..⟩
  unfold ycgcoAlphaToRgbx
  rw [if_neg ha, hdst.accepted hi.wpos hi.hpos hi.w32 hi.h32 (count_pos ch) (count_le ch),
    hi.accepted]
  simp only [Outcome.bind_ok]
  obtain ⟨out, e, h⟩ := alphaFrame_spec hi hdst p1 noAlphaSimd_ok
  exact ⟨out, e, frameRel_or_eq h fun x y p _ _ hp => hp.resolve_right id⟩

/-! ## How close the decoded components are -/

theorem cgcoInv_near {d : Nat} (hd : CgDepth d) (rg : YuvRange) :
    NearestCoef 13 (cgcoInv d (getYuvRange d rg).rangeY) (maxV d / gainY d rg) ∧
    NearestCoef 13 (cgcoInv d (getYuvRange d rg).rangeUv) (maxV d / gainC d rg) ∧
    ((getYuvRange d rg).biasY : Rat) = offY d rg ∧ ((getYuvRange d rg).biasUv : Rat) = offC d := by
  have := cgcoInv_cases hd rg
  simp only [List.mem_cons, Prod.mk.injEq, List.not_mem_nil, or_false] at this
  rcases this with h | h | h | h | h | h <;> obtain ⟨rfl, rfl, e1, e2, e3, e4⟩ := h <;>
    rw [e1, e2, e3, e4] <;> unfold NearestCoef maxV gainY gainC offY offC <;> norm_num

theorem cgco_part_close {d : Nat} (hd : CgDepth d) (rg : YuvRange) {y c : Nat} (hy : y < 2 ^ d)
    (hc : c < 2 ^ d) :
    |(cgcoLumaPart d rg y : Rat) / 2 ^ 13 - maxV d * normY d rg y| ≤ 2 ^ d / (2 * 2 ^ 13) ∧
    |(cgcoChromaPart d rg c : Rat) / 2 ^ 13 - maxV d * normC d rg c| ≤ 2 ^ (d - 1) / (2 * 2 ^ 13) := by
  obtain ⟨n1, n2, e1, e2⟩ := cgcoInv_near hd rg
  have hy' : (y : Rat) ≤ 2 ^ d := by exact_mod_cast hy.le
  have hc' : (c : Rat) ≤ 2 ^ d := by exact_mod_cast hc.le
  have hy0 : (0 : Rat) ≤ y := by positivity
  have hc0 : (0 : Rat) ≤ c := by positivity
  have hp : (2 : Rat) ^ d = 2 * 2 ^ (d - 1) := by
    rcases hd with h | h | h <;> subst h <;> norm_num
  have ho : 0 ≤ offY d rg ∧ offY d rg ≤ 2 ^ d := by
    unfold offY
    cases rg <;> simp only
    · constructor
      · positivity
      · rcases hd with h | h | h <;> subst h <;> norm_num
    · exact ⟨le_refl _, by positivity⟩
  have k1 := coef_err n1 (x := (y : Rat) - offY d rg) (X := 2 ^ d) (by
    rw [abs_le]; constructor <;> linarith [ho.1, ho.2])
  have k2 := coef_err n2 (x := (c : Rat) - offC d) (X := 2 ^ (d - 1)) (by
    unfold offC; rw [abs_le]; constructor <;> linarith)
  constructor
  · unfold cgcoLumaPart normY
    push_cast
    rw [e1]
    convert k1 using 2
    ring
  · unfold cgcoChromaPart normC
    push_cast
    rw [e2]
    convert k2 using 2
    ring

theorem cgcoSat_close {d : Nat} (v : Int) {E D : Rat} (h : |(v : Rat) / 2 ^ 13 - E| ≤ D) :
    |(cgcoSat d v : Rat) - satQ d E| ≤ 1 / 2 + D := by
  have h1 := shift_near_down (p := 13) (by omega) v
  have h2 := sat_close (d := d) h1 h
  have h3 := satI_range d ((v + (2 ^ (13 - 1) - 1)) / 2 ^ 13)
  have e : ((cgcoSat d v : Nat) : Int) = satI d ((v + (2 ^ (13 - 1) - 1)) / 2 ^ 13) := by
    unfold cgcoSat satI at *
    norm_num at h3 ⊢
  have e' : (cgcoSat d v : Rat) = ((satI d ((v + (2 ^ (13 - 1) - 1)) / 2 ^ 13) : Int) : Rat) := by
    rw [← e]; push_cast; rfl
  rw [e']
  exact h2

/-- C34: every decoded component is within half a code value, plus the error of the 13-bit
coefficients, of the saturated exact inverse of the YCgCo equations. -/
theorem c34_decode_close (d : Nat) (hD : CgDepth d) (rg : YuvRange) (y u v : Nat) (hy : y < 2 ^ d)
    (hu : u < 2 ^ d) (hv : v < 2 ^ d) :
    |(cgcoR d rg y u v : Rat) - satQ d (ycgR d rg y u v)| ≤ 1 / 2 + 2 ^ d / 2 ^ 13 ∧
    |(cgcoG d rg y u v : Rat) - satQ d (ycgG d rg y u v)| ≤ 1 / 2 + 2 ^ d / 2 ^ 13 ∧
    |(cgcoB d rg y u v : Rat) - satQ d (ycgB d rg y u v)| ≤ 1 / 2 + 2 ^ d / 2 ^ 13 := by
  obtain ⟨k1, k2⟩ := cgco_part_close hD rg hy hu
  obtain ⟨-, k3⟩ := cgco_part_close hD rg hy hv
  have hp : (2 : Rat) ^ d = 2 * 2 ^ (d - 1) := by
    rcases hD with h | h | h <;> subst h <;> norm_num
  have hq : (0 : Rat) < 2 ^ (d - 1) := by positivity
  rw [hp] at k1 ⊢
  obtain ⟨a1, a2⟩ := abs_le.1 k1
  obtain ⟨b1, b2⟩ := abs_le.1 k2
  obtain ⟨c1, c2⟩ := abs_le.1 k3
  refine ⟨?_, ?_, ?_⟩
  · unfold cgcoR ycgR
    refine cgcoSat_close _ ?_
    push_cast
    rw [abs_le]
    constructor <;> linarith
  · unfold cgcoG ycgG
    refine cgcoSat_close _ ?_
    push_cast
    rw [abs_le]
    constructor <;> linarith
  · unfold cgcoB ycgB
    refine cgcoSat_close _ ?_
    push_cast
    rw [abs_le]
    constructor <;> linarith

/-! ## Encoder arithmetic -/

theorem cgcoFwd_vals : cgcoKY .full = 8192 ∧ cgcoKC .full = 8192 ∧ cgcoKY .limited = 7035 ∧
    cgcoKC .limited = 7196 := by decide +kernel

theorem cgcoK_cases (rg : YuvRange) :
    (rg = .full ∧ cgcoKY rg = 8192 ∧ cgcoKC rg = 8192 ∧ (getYuvRange 8 rg).biasY = 0 ∧
      (getYuvRange 8 rg).biasUv = 128) ∨
    (rg = .limited ∧ cgcoKY rg = 7035 ∧ cgcoKC rg = 7196 ∧ (getYuvRange 8 rg).biasY = 16 ∧
      (getYuvRange 8 rg).biasUv = 128) := by
  obtain ⟨a, b, c, d⟩ := cgcoFwd_vals
  cases rg
  · exact Or.inr ⟨rfl, c, d, rfl, rfl⟩
  · exact Or.inl ⟨rfl, a, b, rfl, rfl⟩

/-- The factors in use are between 7035 and 8192. -/
def KOk (k : Int) : Prop := 0 ≤ k ∧ k ≤ 8192

theorem kok (rg : YuvRange) : KOk (cgcoKY rg) ∧ KOk (cgcoKC rg) := by
  unfold KOk
  rcases cgcoK_cases rg with h | h <;> obtain ⟨-, a, b, -⟩ := h <;> rw [a, b] <;> decide

theorem mulK_bound {r : Nat} {k : Int} (hr : r < 256) (hk : KOk k) :
    0 ≤ (r : Int) * k ∧ (r : Int) * k ≤ 2088960 := by
  obtain ⟨h0, h1⟩ := hk
  refine ⟨Int.mul_nonneg (by omega) h0, ?_⟩
  calc (r : Int) * k ≤ 255 * 8192 := Int.mul_le_mul (by omega) h1 h0 (by omega)
    _ = 2088960 := by norm_num

theorem cgcoLumaOf_ok {k : Int} (hk : KOk k) {bias r g b : Nat} (hb : bias < 256) (hr : r < 256)
    (hg : g < 256) (hb' : b < 256) :
    cgcoLumaOf k bias ((r : Int), (g : Int), (b : Int)) = .ok (low8 (cgcoYVal k bias r g b)) := by
  obtain ⟨r0, r1⟩ := mulK_bound hr hk
  obtain ⟨g0, g1⟩ := mulK_bound hg hk
  obtain ⟨b0, b1⟩ := mulK_bound hb' hk
  unfold cgcoLumaOf cgcoYVal
  simp only
  rw [mul32_ok (by omega) (by omega), mul32_ok (by omega) (by omega), mul32_ok (by omega) (by omega)]
  generalize (r : Int) * k = R at *
  generalize (g : Int) * k = G at *
  generalize (b : Int) * k = B at *
  simp only [Outcome.bind_ok]
  rw [add32_ok (by omega) (by omega)]
  simp only [Outcome.bind_ok, sar, encodeBias]
  norm_num
  rw [add32_ok (by omega) (by omega)]
  simp only [Outcome.bind_ok]
  rw [add32_ok (by omega) (by omega)]
  rfl

theorem cgcoChromaOf_ok {kr kg kb : Int} (h1 : KOk kr) (h2 : KOk kg) (h3 : KOk kb)
    {bias r g b : Nat} (hb : bias < 256) (hr : r < 256) (hg : g < 256) (hb' : b < 256) :
    cgcoChromaOf kr kg kb bias (r : Int) (g : Int) (b : Int)
      = .ok (low8 (cgcoCgVal kr kg kb bias r g b), low8 (cgcoCoVal kr kb bias r b)) := by
  obtain ⟨r0, r1⟩ := mulK_bound hr h1
  obtain ⟨g0, g1⟩ := mulK_bound hg h2
  obtain ⟨b0, b1⟩ := mulK_bound hb' h3
  unfold cgcoChromaOf cgcoCgVal cgcoCoVal
  rw [mul32_ok (by omega) (by omega), mul32_ok (by omega) (by omega), mul32_ok (by omega) (by omega)]
  generalize (r : Int) * kr = R at *
  generalize (g : Int) * kg = G at *
  generalize (b : Int) * kb = B at *
  simp only [Outcome.bind_ok]
  rw [add32_ok (by omega) (by omega)]
  simp only [Outcome.bind_ok, sar, encodeBias]
  norm_num
  rw [sub32_ok (by omega) (by omega)]
  simp only [Outcome.bind_ok]
  rw [add32_ok (by omega) (by omega)]
  simp only [Outcome.bind_ok]
  rw [sub32_ok (by omega) (by omega)]
  simp only [Outcome.bind_ok]
  rw [add32_ok (by omega) (by omega)]
  rfl

/-- The values the encoder stores. -/
def cgcoFun (s : Sampling) (rg : YuvRange) (ch : Channels) : EncFun where
  y px := cgcoY8 rg (red ch px) (green ch px) (blue ch px)
  y11 _ px := cgcoY8 rg (red ch px) (green ch px) (blue ch px)
  u vert l := let avg := if vert = true then avgDown else avgUp
    cgcoCg8 s rg l.length (avg (l.map (red ch))) (avg (l.map (green ch))) (avg (l.map (blue ch)))
  v vert l := let avg := if vert = true then avgDown else avgUp
    cgcoCo8 s rg l.length (avg (l.map (red ch))) (avg (l.map (blue ch)))

theorem biasOk (rg : YuvRange) : (getYuvRange 8 rg).biasY < 256 ∧ (getYuvRange 8 rg).biasUv < 256 := by
  cases rg <;> decide

theorem cgcoBlocks_ok (s : Sampling) (rg : YuvRange) (ch : Channels) (kr kg kb : Int)
    (hs : cgcoScale s rg 1 = (kr, kg, kb)) :
    BlocksOk (cgcoBlocks (cgcoKY rg) (cgcoKC rg) kr kg kb (getYuvRange 8 rg) ch) 256 ch.count
      (cgcoFun s rg ch) := by
  obtain ⟨by_, bu⟩ := biasOk rg
  obtain ⟨ky, kc⟩ := kok rg
  have hk : KOk kr ∧ KOk kg ∧ KOk kb := by
    unfold cgcoScale at hs
    rw [if_pos rfl] at hs
    cases s <;> simp only [Prod.mk.injEq] at hs <;> obtain ⟨rfl, rfl, rfl⟩ := hs <;>
      exact ⟨by assumption, by assumption, by assumption⟩
  obtain ⟨k1, k2, k3⟩ := hk
  have s2 : ∀ n, n ≠ 1 → cgcoScale s rg n = (cgcoKC rg, cgcoKC rg, cgcoKC rg) :=
    fun n hn => if_neg hn
  have hy : ∀ r g b : Nat, r < 256 → g < 256 → b < 256 →
      cgcoLumaOf (cgcoKY rg) (getYuvRange 8 rg).biasY ((r : Int), (g : Int), (b : Int))
        = .ok (cgcoY8 rg r g b) := fun r g b hr hg hb => cgcoLumaOf_ok ky by_ hr hg hb
  have h1 : ∀ r g b : Nat, r < 256 → g < 256 → b < 256 →
      cgcoChromaOf kr kg kb (getYuvRange 8 rg).biasUv (r : Int) (g : Int) (b : Int)
        = .ok (cgcoCg8 s rg 1 r g b, cgcoCo8 s rg 1 r b) := fun r g b hr hg hb => by
    unfold cgcoCg8 cgcoCo8
    rw [hs]
    exact cgcoChromaOf_ok k1 k2 k3 bu hr hg hb
  have hn : ∀ n r g b : Nat, n ≠ 1 → r < 256 → g < 256 → b < 256 →
      cgcoChromaOf (cgcoKC rg) (cgcoKC rg) (cgcoKC rg) (getYuvRange 8 rg).biasUv (r : Int) (g : Int)
        (b : Int) = .ok (cgcoCg8 s rg n r g b, cgcoCo8 s rg n r b) := fun n r g b hn hr hg hb => by
    unfold cgcoCg8 cgcoCo8
    rw [s2 n hn]
    exact cgcoChromaOf_ok kc kc kc bu hr hg hb
  have single : ∀ a : Buf, a.length = ch.count → (∀ s ∈ a, s < 256) →
      (do
        let px ← readRgb ch a
        let y ← cgcoLumaOf (cgcoKY rg) (getYuvRange 8 rg).biasY px
        let (cg, co) ← cgcoChromaOf kr kg kb (getYuvRange 8 rg).biasUv px.1 px.2.1 px.2.2
        return (y, cg, co)) = Outcome.ok ((cgcoFun s rg ch).y a, (cgcoFun s rg ch).u false [a],
          (cgcoFun s rg ch).v false [a]) := by
    intro a ha ba
    obtain ⟨r1, g1, b1⟩ := rgb_lt ha ba
    rw [readRgb_ok ha]
    simp only [Outcome.bind_ok]
    rw [hy _ _ _ r1 g1 b1]
    simp only [Outcome.bind_ok]
    rw [h1 _ _ _ r1 g1 b1]
    simp [cgcoFun, avgUp_one]
  refine ⟨single, ?_, single, ?_, ?_⟩
  · intro a b ha hb ba bb
    obtain ⟨r1, g1, b1⟩ := rgb_lt ha ba
    obtain ⟨r2, g2, b2⟩ := rgb_lt hb bb
    simp only [cgcoBlocks]
    rw [slice_left ha, slice_right ha hb]
    simp only [Outcome.bind_ok]
    rw [readRgb_ok ha, readRgb_ok hb]
    simp only [Outcome.bind_ok]
    rw [hy _ _ _ r1 g1 b1, hy _ _ _ r2 g2 b2]
    simp only [Outcome.bind_ok]
    rw [show (1 : Int) = ((1 : Nat) : Int) from rfl, avg2_ok (by omega) (by omega) (by omega),
      avg2_ok (by omega) (by omega) (by omega), avg2_ok (by omega) (by omega) (by omega)]
    simp only [Outcome.bind_ok]
    rw [hn 2 _ _ _ (by omega) (by omega) (by omega) (by omega)]
    simp [cgcoFun, avgUp_two]
  · intro a b d e ha hb hd he ba bb bd be
    obtain ⟨r1, g1, b1⟩ := rgb_lt ha ba
    obtain ⟨r2, g2, b2⟩ := rgb_lt hb bb
    obtain ⟨r3, g3, b3⟩ := rgb_lt hd bd
    obtain ⟨r4, g4, b4⟩ := rgb_lt he be
    simp only [cgcoBlocks]
    rw [slice_left ha, slice_right ha hb, slice_left hd, slice_right hd he]
    simp only [Outcome.bind_ok]
    rw [readRgb_ok ha, readRgb_ok hb, readRgb_ok hd, readRgb_ok he]
    simp only [Outcome.bind_ok]
    rw [hy _ _ _ r1 g1 b1, hy _ _ _ r2 g2 b2, hy _ _ _ r3 g3 b3, hy _ _ _ r4 g4 b4]
    simp only [Outcome.bind_ok]
    rw [avg4_ok (by omega) (by omega) (by omega) (by omega),
      avg4_ok (by omega) (by omega) (by omega) (by omega),
      avg4_ok (by omega) (by omega) (by omega) (by omega)]
    simp only [Outcome.bind_ok]
    rw [hn 4 _ _ _ (by omega) (by omega) (by omega) (by omega)]
    simp [cgcoFun, avgUp_four]
  · intro a b ha hb ba bb
    obtain ⟨r1, g1, b1⟩ := rgb_lt ha ba
    obtain ⟨r2, g2, b2⟩ := rgb_lt hb bb
    simp only [cgcoBlocks]
    rw [readRgb_ok ha, readRgb_ok hb]
    simp only [Outcome.bind_ok]
    rw [hy _ _ _ r1 g1 b1, hy _ _ _ r2 g2 b2]
    simp only [Outcome.bind_ok]
    rw [show (0 : Int) = ((0 : Nat) : Int) from rfl, avg2_ok (by omega) (by omega) (by omega),
      avg2_ok (by omega) (by omega) (by omega), avg2_ok (by omega) (by omega) (by omega)]
    simp only [Outcome.bind_ok]
    rw [hn 2 _ _ _ (by omega) (by omega) (by omega) (by omega)]
    simp [cgcoFun, avgDown]

/-! ## Encoding -/

/-- The YCgCo planes of the pixels of `rgba`: luma is computed from every pixel, a chroma sample from
the average of the pixels it covers, and nothing else is written. -/
structure CgcoSpec (ch : Channels) (s : Sampling) (rg : YuvRange) (rgba : Buf) (stride : Nat)
    (i out : Planar) : Prop where
  geometry : out.width = i.width ∧ out.height = i.height ∧ out.yStride = i.yStride ∧
    out.uStride = i.uStride ∧ out.vStride = i.vStride
  y : FrameSpec out.y i.y i.yStride i.width i.height 1 fun x y =>
    let px := pixelAt rgba stride ch.count x y
    [cgcoY8 rg (red ch px) (green ch px) (blue ch px)]
  u : FrameSpec out.u i.u i.uStride (cover i.width (hdiv s)) (cover i.height (vdiv s)) 1 fun cx cy =>
    let blk := block rgba stride ch.count i.width i.height (hdiv s) (vdiv s) cx cy
    let avg := planarAvg i.width i.height s cx cy
    [cgcoCg8 s rg blk.length (avg (blk.map (red ch))) (avg (blk.map (green ch)))
      (avg (blk.map (blue ch)))]
  v : FrameSpec out.v i.v i.vStride (cover i.width (hdiv s)) (cover i.height (vdiv s)) 1 fun cx cy =>
    let blk := block rgba stride ch.count i.width i.height (hdiv s) (vdiv s) cx cy
    let avg := planarAvg i.width i.height s cx cy
    [cgcoCo8 s rg blk.length (avg (blk.map (red ch))) (avg (blk.map (blue ch)))]

/-- C34, encode: encoding a good RGB(A) buffer into a good 8-bit YCgCo image succeeds and stores
exactly the YCgCo planes. -/
theorem c34_encode (ch : Channels) (s : Sampling) (i : Planar) (rgba : Buf) (stride : Nat)
    (rg : YuvRange) (D : Nat) (hi : GoodPlanar i s D)
    (hsrc : GoodDst rgba.length stride i.width i.height ch.count) (hb : Bytes rgba) :
    ∃ out, rgbxToYcgco x64 ch s i rgba stride rg = .ok out ∧
      CgcoSpec ch s rg rgba stride i out := by
  have hr := hi.rows
  have hcn := count_pos ch
  have fin : ∀ o : Outcome (Buf × Buf × Buf),
      Encoded (cgcoFun s rg ch) noRel s ch.count i rgba stride o →
      ∃ out, (o >>= fun x => pure { i with y := x.1, u := x.2.1, v := x.2.2 }) = Outcome.ok out ∧
      CgcoSpec ch s rg rgba stride i out := by
    intro o ⟨y, u, v, e, ly, lu, lv⟩
    refine ⟨{ i with y, u, v }, by rw [e]; rfl, ⟨rfl, rfl, rfl, rfl, rfl⟩, ?_, ?_, ?_⟩
    · unfold LumaOk at ly
      refine frameRel_eq ⟨ly.1, fun x y hx hy => ?_, ly.2.2⟩
      rw [(ly.2.1 x y hx hy).resolve_right id]
      unfold EncFun.lumaAt
      split <;> rfl
    · rw [cover_hdiv hi.wpos, cover_vdiv hi.hpos]
      unfold ChromaOk at lu
      refine frameRel_eq ⟨lu.1, fun x y hx hy => ?_, lu.2.2⟩
      rw [(lu.2.1 x y hx hy).resolve_right id]
      rfl
    · rw [cover_hdiv hi.wpos, cover_vdiv hi.hpos]
      unfold ChromaOk at lv
      refine frameRel_eq ⟨lv.1, fun x y hx hy => ?_, lv.2.2⟩
      rw [(lv.2.1 x y hx hy).resolve_right id]
      rfl
  have hE := cgcoBlocks_ok s rg ch _ _ _ rfl
  unfold rgbxToYcgco
  rw [hsrc.accepted hi.wpos hi.hpos hi.w32 hi.h32 hcn (count_le ch), hi.accepted]
  simp only [Outcome.bind_ok]
  cases s with
  | yuv444 => exact fin _ (encode444_ok hcn hE (noEnc_ok (s := .yuv444)) hr hsrc.full hsrc.cols_le hb)
  | yuv422 => exact fin _ (encode422_ok hcn hE (noEnc_ok (s := .yuv422)) hr hsrc.full hsrc.cols_le hb (Or.inl rfl))
  | yuv420 => exact fin _ (encode420_ok hcn hE (noEnc_ok (s := .yuv420)) noEnc420_ok hr hsrc.full hsrc.cols_le hb)

/-! ## How close the encoded samples are -/

theorem low8_id {x : Int} (h0 : 0 ≤ x) (h1 : x < 256) : ((low8 x : Nat) : Int) = x := by
  unfold low8; omega

/-- C34: stored luma is within 0.52 code values of `(R + 2G + B) / 4` scaled to the range. -/
theorem c34_luma_close (rg : YuvRange) (r g b : Nat) (hr : r < 256) (hg : g < 256) (hb : b < 256) :
    |(cgcoY8 rg r g b : Rat) - ycgY 8 rg r g b| ≤ 52 / 100 := by
  have key : ∃ v : Int, ((cgcoY8 rg r g b : Nat) : Int) = v ∧
      4 * 8192 * v ≤ (2 * g + r + b) * cgcoKY rg + 4 * ((getYuvRange 8 rg).biasY * 8192 + 4095) ∧
      (2 * g + r + b) * cgcoKY rg + 4 * ((getYuvRange 8 rg).biasY * 8192 + 4095) - 4 * 8191 - 5
        ≤ 4 * 8192 * v := by
    unfold cgcoY8 cgcoYVal
    rcases cgcoK_cases rg with h | h <;> obtain ⟨-, a, -, c, -⟩ := h <;> rw [a, c] <;>
      refine ⟨_, low8_id ?_ ?_, ?_, ?_⟩ <;> omega
  obtain ⟨v, e, h1, h2⟩ := key
  have e' : ((cgcoY8 rg r g b : Nat) : Rat) = (v : Rat) := by exact_mod_cast e
  rw [e']
  have b1 : (r : Rat) ≤ 255 := by exact_mod_cast Nat.le_of_lt_succ hr
  have b2 : (g : Rat) ≤ 255 := by exact_mod_cast Nat.le_of_lt_succ hg
  have b3 : (b : Rat) ≤ 255 := by exact_mod_cast Nat.le_of_lt_succ hb
  have p1 : (0 : Rat) ≤ r := by positivity
  have p2 : (0 : Rat) ≤ g := by positivity
  have p3 : (0 : Rat) ≤ b := by positivity
  have h1' : (4 * 8192 * v : Rat) ≤ (2 * g + r + b) * cgcoKY rg +
      4 * ((getYuvRange 8 rg).biasY * 8192 + 4095) := by exact_mod_cast h1
  have h2' : ((2 * g + r + b) * cgcoKY rg + 4 * ((getYuvRange 8 rg).biasY * 8192 + 4095) - 4 * 8191 - 5
      : Rat) ≤ 4 * 8192 * v := by exact_mod_cast h2
  rw [abs_le]
  unfold ycgY
  rcases cgcoK_cases rg with h | h <;> obtain ⟨rfl, a, -, c, -⟩ := h <;> rw [a, c] at h1' h2' <;>
    unfold offY gainY maxV <;> norm_num at h1' h2' ⊢ <;> constructor <;> linarith

/-- Cg and Co of a chroma sample made with equal factors. -/
theorem cgco_chroma_close (s : Sampling) (rg : YuvRange) (n r g b : Nat) (hr : r < 256)
    (hg : g < 256) (hb : b < 256)
    (h : cgcoScale s rg n = (cgcoKC rg, cgcoKC rg, cgcoKC rg)) :
    |(cgcoCg8 s rg n r g b : Rat) - ycgCg 8 rg r g b| ≤ 52 / 100 ∧
    |(cgcoCo8 s rg n r b : Rat) - ycgCo 8 rg r g b| ≤ 52 / 100 := by
  have key : ∃ v w : Int, ((cgcoCg8 s rg n r g b : Nat) : Int) = v ∧
      ((cgcoCo8 s rg n r b : Nat) : Int) = w ∧
      4 * 8192 * v ≤ (2 * g - r - b) * cgcoKC rg + 4 * ((getYuvRange 8 rg).biasUv * 8192 + 4095) + 3 ∧
      (2 * g - r - b) * cgcoKC rg + 4 * ((getYuvRange 8 rg).biasUv * 8192 + 4095) - 4 * 8191 - 2
        ≤ 4 * 8192 * v ∧
      2 * 8192 * w ≤ ((r : Int) - b) * cgcoKC rg + 2 * ((getYuvRange 8 rg).biasUv * 8192 + 4095) ∧
      ((r : Int) - b) * cgcoKC rg + 2 * ((getYuvRange 8 rg).biasUv * 8192 + 4095) - 2 * 8191 - 1
        ≤ 2 * 8192 * w := by
    unfold cgcoCg8 cgcoCo8
    rw [h]
    unfold cgcoCgVal cgcoCoVal
    rcases cgcoK_cases rg with h | h <;> obtain ⟨-, -, a, -, c⟩ := h <;> rw [a, c] <;>
      refine ⟨_, _, low8_id ?_ ?_, low8_id ?_ ?_, ?_, ?_, ?_, ?_⟩ <;> simp only <;> omega
  obtain ⟨v, w, e1, e2, h1, h2, h3, h4⟩ := key
  have e1' : ((cgcoCg8 s rg n r g b : Nat) : Rat) = (v : Rat) := by exact_mod_cast e1
  have e2' : ((cgcoCo8 s rg n r b : Nat) : Rat) = (w : Rat) := by exact_mod_cast e2
  rw [e1', e2']
  have b1 : (r : Rat) ≤ 255 := by exact_mod_cast Nat.le_of_lt_succ hr
  have b2 : (g : Rat) ≤ 255 := by exact_mod_cast Nat.le_of_lt_succ hg
  have b3 : (b : Rat) ≤ 255 := by exact_mod_cast Nat.le_of_lt_succ hb
  have p1 : (0 : Rat) ≤ r := by positivity
  have p2 : (0 : Rat) ≤ g := by positivity
  have p3 : (0 : Rat) ≤ b := by positivity
  have h1' : (4 * 8192 * v : Rat) ≤ (2 * g - r - b) * cgcoKC rg +
      4 * ((getYuvRange 8 rg).biasUv * 8192 + 4095) + 3 := by exact_mod_cast h1
  have h2' : ((2 * g - r - b) * cgcoKC rg + 4 * ((getYuvRange 8 rg).biasUv * 8192 + 4095) - 4 * 8191 - 2
      : Rat) ≤ 4 * 8192 * v := by exact_mod_cast h2
  have h3' : (2 * 8192 * w : Rat) ≤ ((r : Rat) - b) * cgcoKC rg +
      2 * ((getYuvRange 8 rg).biasUv * 8192 + 4095) := by exact_mod_cast h3
  have h4' : (((r : Rat) - b) * cgcoKC rg + 2 * ((getYuvRange 8 rg).biasUv * 8192 + 4095) - 2 * 8191 - 1
      : Rat) ≤ 2 * 8192 * w := by exact_mod_cast h4
  rw [abs_le, abs_le]
  unfold ycgCg ycgCo
  rcases cgcoK_cases rg with h | h <;> obtain ⟨rfl, -, a, -, c⟩ := h <;>
    rw [a, c] at h1' h2' h3' h4' <;>
    unfold offC gainC maxV <;> norm_num at h1' h2' h3' h4' ⊢ <;>
    refine ⟨⟨?_, ?_⟩, ?_, ?_⟩ <;> linarith

/-- C34: in full range stored Cg and Co are within 0.52 code values of the exact ones, for every
sampling and every number of averaged pixels. -/
theorem c34_full_chroma_close (s : Sampling) (n r g b : Nat) (hr : r < 256) (hg : g < 256)
    (hb : b < 256) :
    |(cgcoCg8 s .full n r g b : Rat) - ycgCg 8 .full r g b| ≤ 52 / 100 ∧
    |(cgcoCo8 s .full n r b : Rat) - ycgCo 8 .full r g b| ≤ 52 / 100 := by
  refine cgco_chroma_close s .full n r g b hr hg hb ?_
  obtain ⟨a, c, -, -⟩ := cgcoFwd_vals
  unfold cgcoScale
  rw [a, c]
  cases s <;> simp

/-- C34, limited range, for chroma samples made of more than one pixel.  Missing: 4:4:4 and the last
column of images of odd width, where the statement is false (`c34_limited_chroma_off`). -/
theorem c34_limited_chroma_close_partial (s : Sampling) (n r g b : Nat) (hn : n ≠ 1) (hr : r < 256)
    (hg : g < 256) (hb : b < 256) :
    |(cgcoCg8 s .limited n r g b : Rat) - ycgCg 8 .limited r g b| ≤ 52 / 100 ∧
    |(cgcoCo8 s .limited n r b : Rat) - ycgCo 8 .limited r g b| ≤ 52 / 100 :=
  cgco_chroma_close s .limited n r g b hr hg hb (if_neg hn)

/-- In limited range 4:4:4 uses the luma factor for chroma: Cg of pure green is off by three. -/
theorem c34_limited_chroma_off :
    cgcoCg8 .yuv444 .limited 1 0 255 0 = 237 ∧ ycgCg 8 .limited 0 255 0 = 240 ∧
    cgcoCo8 .yuv444 .limited 1 255 0 = 237 ∧ ycgCo 8 .limited 255 0 0 = 240 := by
  refine ⟨by decide +kernel, ?_, by decide +kernel, ?_⟩ <;>
    norm_num [ycgCg, ycgCo, offC, gainC, maxV]

/-- C34, limited range 4:4:4, what does hold: Cg and Co are within 3.5 code values. -/
theorem c34_limited444_chroma_close_partial (r g b : Nat) (hr : r < 256) (hg : g < 256) (hb : b < 256) :
    |(cgcoCg8 .yuv444 .limited 1 r g b : Rat) - ycgCg 8 .limited r g b| ≤ 35 / 10 ∧
    |(cgcoCo8 .yuv444 .limited 1 r b : Rat) - ycgCo 8 .limited r g b| ≤ 35 / 10 := by
  obtain ⟨-, -, ka, -⟩ := cgcoFwd_vals
  have key : ∃ v w : Int, ((cgcoCg8 .yuv444 .limited 1 r g b : Nat) : Int) = v ∧
      ((cgcoCo8 .yuv444 .limited 1 r b : Nat) : Int) = w ∧
      4 * 8192 * v ≤ (2 * g - r - b) * 7035 + 4 * (128 * 8192 + 4095) + 3 ∧
      (2 * g - r - b) * 7035 + 4 * (128 * 8192 + 4095) - 4 * 8191 - 2 ≤ 4 * 8192 * v ∧
      2 * 8192 * w ≤ ((r : Int) - b) * 7035 + 2 * (128 * 8192 + 4095) ∧
      ((r : Int) - b) * 7035 + 2 * (128 * 8192 + 4095) - 2 * 8191 - 1 ≤ 2 * 8192 * w := by
    unfold cgcoCg8 cgcoCo8 cgcoScale
    rw [if_pos rfl]
    simp only [ka]
    unfold cgcoCgVal cgcoCoVal
    have hb : (getYuvRange 8 .limited).biasUv = 128 := rfl
    rw [hb]
    refine ⟨_, _, low8_id ?_ ?_, low8_id ?_ ?_, ?_, ?_, ?_, ?_⟩ <;> omega
  obtain ⟨v, w, e1, e2, h1, h2, h3, h4⟩ := key
  have e1' : ((cgcoCg8 .yuv444 .limited 1 r g b : Nat) : Rat) = (v : Rat) := by exact_mod_cast e1
  have e2' : ((cgcoCo8 .yuv444 .limited 1 r b : Nat) : Rat) = (w : Rat) := by exact_mod_cast e2
  rw [e1', e2']
  have b1 : (r : Rat) ≤ 255 := by exact_mod_cast Nat.le_of_lt_succ hr
  have b2 : (g : Rat) ≤ 255 := by exact_mod_cast Nat.le_of_lt_succ hg
  have b3 : (b : Rat) ≤ 255 := by exact_mod_cast Nat.le_of_lt_succ hb
  have p1 : (0 : Rat) ≤ r := by positivity
  have p2 : (0 : Rat) ≤ g := by positivity
  have p3 : (0 : Rat) ≤ b := by positivity
  have h1' : (4 * 8192 * v : Rat) ≤ (2 * g - r - b) * 7035 + 4 * (128 * 8192 + 4095) + 3 := by
    exact_mod_cast h1
  have h2' : ((2 * g - r - b) * 7035 + 4 * (128 * 8192 + 4095) - 4 * 8191 - 2
      : Rat) ≤ 4 * 8192 * v := by exact_mod_cast h2
  have h3' : (2 * 8192 * w : Rat) ≤ ((r : Rat) - b) * 7035 + 2 * (128 * 8192 + 4095) := by
    exact_mod_cast h3
  have h4' : (((r : Rat) - b) * 7035 + 2 * (128 * 8192 + 4095) - 2 * 8191 - 1
      : Rat) ≤ 2 * 8192 * w := by exact_mod_cast h4
  rw [abs_le, abs_le]
  unfold ycgCg ycgCo offC gainC maxV
  norm_num
  refine ⟨⟨?_, ?_⟩, ?_, ?_⟩ <;> linarith

/-! ## Gray -/

/-- C34: gray has neutral chroma, in full range for every sampling, in limited range for 4:4:4 and
for chroma samples made of more than one pixel. -/
theorem c34_gray_neutral_partial (s : Sampling) (rg : YuvRange) (n g : Nat) (hg : g < 256)
    (h : rg = .full ∨ s = .yuv444 ∨ n ≠ 1) :
    cgcoCg8 s rg n g g g = 128 ∧ cgcoCo8 s rg n g g = 128 := by
  have hk : ∃ k, KOk k ∧ cgcoScale s rg n = (k, k, k) := by
    obtain ⟨k1, k2⟩ := kok rg
    by_cases hn : n = 1
    · subst hn
      unfold cgcoScale
      rw [if_pos rfl]
      rcases h with h | h | h
      · subst h
        obtain ⟨a, c, -, -⟩ := cgcoFwd_vals
        rw [a, c]
        exact ⟨8192, by unfold KOk; decide, by cases s <;> rfl⟩
      · subst h
        exact ⟨_, k1, rfl⟩
      · exact absurd rfl h
    · exact ⟨_, k2, if_neg hn⟩
  obtain ⟨k, hk, e⟩ := hk
  have hb : (getYuvRange 8 rg).biasUv = 128 := by cases rg <;> rfl
  obtain ⟨g0, g1⟩ := mulK_bound hg hk
  unfold cgcoCg8 cgcoCo8
  rw [e, hb]
  unfold cgcoCgVal cgcoCoVal low8
  simp only
  generalize (g : Int) * k = G at *
  norm_num
  constructor <;> omega

/-- In limited range the last column of a 4:2:2 or 4:2:0 image of odd width is tinted: the chroma of
white there is not neutral. -/
theorem c34_gray_not_neutral :
    cgcoCg8 .yuv422 .limited 1 255 255 255 = 129 ∧ cgcoCo8 .yuv422 .limited 1 255 255 = 125 ∧
    cgcoCo8 .yuv420 .limited 1 255 255 = 125 := by decide +kernel

/-! ## Round trip -/

/-- How far the components of a pixel may move in a 4:4:4 round trip. -/
def Spec.cgcoError : YuvRange → Nat
  | .full => 1
  | .limited => 6

/-- C34: encoding and decoding one pixel in 4:4:4 moves every component by at most one code value in
full range, six in limited range. -/
theorem c34_pixel_round_trip (rg : YuvRange) (r g b : Nat) (hr : r < 256) (hg : g < 256)
    (hb : b < 256) :
    let y := cgcoY8 rg r g b
    let u := cgcoCg8 .yuv444 rg 1 r g b
    let v := cgcoCo8 .yuv444 rg 1 r b
    (cgcoR 8 rg y u v ≤ r + cgcoError rg ∧ r ≤ cgcoR 8 rg y u v + cgcoError rg) ∧
    (cgcoG 8 rg y u v ≤ g + cgcoError rg ∧ g ≤ cgcoG 8 rg y u v + cgcoError rg) ∧
    (cgcoB 8 rg y u v ≤ b + cgcoError rg ∧ b ≤ cgcoB 8 rg y u v + cgcoError rg) := by
  have hi := cgcoInv_cases (Or.inl rfl : CgDepth 8) rg
  simp only [List.mem_cons, Prod.mk.injEq, List.not_mem_nil, or_false] at hi
  have key : ∃ yv u v : Int, ((cgcoY8 rg r g b : Nat) : Int) = yv ∧
      ((cgcoCg8 .yuv444 rg 1 r g b : Nat) : Int) = u ∧
      ((cgcoCo8 .yuv444 rg 1 r b : Nat) : Int) = v ∧
      4 * 8192 * yv ≤ (2 * g + r + b) * cgcoKY rg + 4 * ((getYuvRange 8 rg).biasY * 8192 + 4095) ∧
      (2 * g + r + b) * cgcoKY rg + 4 * ((getYuvRange 8 rg).biasY * 8192 + 4095) - 4 * 8191 - 5
        ≤ 4 * 8192 * yv ∧
      4 * 8192 * u ≤ (2 * g - r - b) * cgcoKY rg + 4 * (128 * 8192 + 4095) + 3 ∧
      (2 * g - r - b) * cgcoKY rg + 4 * (128 * 8192 + 4095) - 4 * 8191 - 2 ≤ 4 * 8192 * u ∧
      2 * 8192 * v ≤ ((r : Int) - b) * cgcoKY rg + 2 * (128 * 8192 + 4095) ∧
      ((r : Int) - b) * cgcoKY rg + 2 * (128 * 8192 + 4095) - 2 * 8191 - 1 ≤ 2 * 8192 * v := by
    unfold cgcoY8 cgcoCg8 cgcoCo8 cgcoScale
    rw [if_pos rfl]
    simp only
    unfold cgcoYVal cgcoCgVal cgcoCoVal
    rcases cgcoK_cases rg with h | h <;> obtain ⟨-, a, -, c, c'⟩ := h <;> rw [a, c, c'] <;>
      refine ⟨_, _, _, low8_id ?_ ?_, low8_id ?_ ?_, low8_id ?_ ?_, ?_, ?_, ?_, ?_, ?_, ?_⟩ <;> omega
  obtain ⟨yv, u, v, e1, e2, e3, h1, h2, h3, h4, h5, h6⟩ := key
  simp only
  unfold cgcoR cgcoG cgcoB cgcoLumaPart cgcoChromaPart cgcoSat
  rw [e1, e2, e3]
  clear e1 e2 e3
  rcases hi with h | h | h | h | h | h
  · obtain ⟨-, rfl, e1, e2, e3, e4⟩ := h
    rw [cgcoFwd_vals.1] at *
    simp only [e1, e2, e3, e4, cgcoError] at *
    norm_num at *
    refine ⟨⟨?_, ?_⟩, ⟨?_, ?_⟩, ?_, ?_⟩ <;> omega
  · exact absurd h.1 (by decide)
  · exact absurd h.1 (by decide)
  · obtain ⟨-, rfl, e1, e2, e3, e4⟩ := h
    rw [cgcoFwd_vals.2.2.1] at *
    simp only [e1, e2, e3, e4, cgcoError] at *
    norm_num at *
    refine ⟨⟨?_, ?_⟩, ⟨?_, ?_⟩, ?_, ?_⟩ <;> omega
  · exact absurd h.1 (by decide)
  · exact absurd h.1 (by decide)

/-- Six occurs in limited range. -/
theorem c34_limited_error_occurs :
    cgcoR 8 .limited (cgcoY8 .limited 246 0 3) (cgcoCg8 .yuv444 .limited 1 246 0 3)
      (cgcoCo8 .yuv444 .limited 1 246 3) = 240 := by decide +kernel

theorem cgco8_lt (s : Sampling) (rg : YuvRange) (n r g b : Nat) :
    cgcoY8 rg r g b < 256 ∧ cgcoCg8 s rg n r g b < 256 ∧ cgcoCo8 s rg n r b < 256 :=
  ⟨low8_lt _, low8_lt _, low8_lt _⟩

/-- The encoded image is a good image again. -/
theorem CgcoSpec.good {ch : Channels} {s : Sampling} {rg : YuvRange} {rgba : Buf} {stride : Nat}
    {i out : Planar} (h : CgcoSpec ch s rg rgba stride i out) (hi : GoodPlanar i s 256) :
    GoodPlanar out s 256 := by
  obtain ⟨g1, g2, g3, g4, g5⟩ := h.geometry
  refine ⟨g1 ▸ hi.wpos, g2 ▸ hi.hpos, g1 ▸ hi.w32, g2 ▸ hi.h32, ?_, ?_, ?_⟩
  · rw [g1, g2, g3]
    exact ⟨hi.y.stride32, hi.y.cols_le, by rw [h.y.1]; exact hi.y.full,
      frameSpec_bound h.y hi.y.bound fun _ _ => low8_lt _⟩
  · rw [g1, g2, g4]
    exact ⟨hi.u.stride32, hi.u.cols_le, by rw [h.u.1]; exact hi.u.full,
      frameSpec_bound h.u hi.u.bound fun _ _ => low8_lt _⟩
  · rw [g1, g2, g5]
    exact ⟨hi.v.stride32, hi.v.cols_le, by rw [h.v.1]; exact hi.v.full,
      frameSpec_bound h.v hi.v.bound fun _ _ => low8_lt _⟩

/-- C34 at the API: encoding an RGB(A) image to 4:4:4 YCgCo and decoding the result with the same
range, into any channel order, returns every component within one code value in full range, six in
limited range. -/
theorem c34_round_trip (ch ch' : Channels) (i : Planar) (rgba dst : Buf) (stride stride' : Nat)
    (rg : YuvRange) (hi : GoodPlanar i .yuv444 256)
    (hsrc : GoodDst rgba.length stride i.width i.height ch.count) (hb : Bytes rgba)
    (hdst : GoodDst dst.length stride' i.width i.height ch'.count) :
    ∃ yuv out, rgbxToYcgco x64 ch .yuv444 i rgba stride rg = .ok yuv ∧
      ycgcoToRgbx x64 8 ch' .yuv444 yuv dst stride' rg = .ok out ∧
      ∀ x y, x < i.width → y < i.height →
        let px := pixelAt rgba stride ch.count x y
        ∃ r g b : Nat, pixelAt out stride' ch'.count x y = layout ch' r g b 255 ∧
          (r ≤ red ch px + cgcoError rg ∧ red ch px ≤ r + cgcoError rg) ∧
          (g ≤ green ch px + cgcoError rg ∧ green ch px ≤ g + cgcoError rg) ∧
          (b ≤ blue ch px + cgcoError rg ∧ blue ch px ≤ b + cgcoError rg) := by
  obtain ⟨yuv, e, hs⟩ := c34_encode ch .yuv444 i rgba stride rg 256 hi hsrc hb
  have hg := hs.good hi
  obtain ⟨g1, g2, g3, g4, g5⟩ := hs.geometry
  rw [← g1, ← g2] at hdst
  obtain ⟨out, e', hr⟩ := c34_decode 8 (Or.inl rfl) ch' .yuv444 yuv dst stride' rg hg hdst
  refine ⟨yuv, out, e, e', fun x y hx hy => ?_⟩
  intro px
  have hpx := frameSpec_pixel hr (g1 ▸ hx) (g2 ▸ hy) (layout_length ..)
  obtain ⟨r1, gr1, b1⟩ : red ch px < 256 ∧ green ch px < 256 ∧ blue ch px < 256 :=
    comps_lt (by omega) ch (mem_pixelAt hb)
  have cx : x < cover i.width (hdiv .yuv444) := by
    simp only [cover, hdiv, Nat.div_one]; omega
  have cy : y < cover i.height (vdiv .yuv444) := by
    simp only [cover, vdiv, Nat.div_one]; omega
  have hblk : block rgba stride ch.count i.width i.height (hdiv .yuv444) (vdiv .yuv444) x y = [px] := by
    simp only [hdiv, vdiv, block, blockCols_one hx, blockCols_one hy]
    rfl
  have havg : planarAvg i.width i.height .yuv444 x y = avgUp := by
    simp [planarAvg, lastColumn, hdiv]
  have hY : Planar.Y yuv x y = cgcoY8 rg (red ch px) (green ch px) (blue ch px) := by
    unfold Planar.Y
    rw [g3, frameSpec_at hs.y hx hy]
  have hU : Planar.U yuv .yuv444 x y
      = cgcoCg8 .yuv444 rg 1 (red ch px) (green ch px) (blue ch px) := by
    unfold Planar.U
    rw [g4]
    simp only [hdiv, vdiv, Nat.div_one]
    rw [frameSpec_at hs.u cx cy, hblk, havg]
    simp only [List.map_cons, List.map_nil, avgUp_one, List.length_singleton]
  have hV : Planar.V yuv .yuv444 x y = cgcoCo8 .yuv444 rg 1 (red ch px) (blue ch px) := by
    unfold Planar.V
    rw [g5]
    simp only [hdiv, vdiv, Nat.div_one]
    rw [frameSpec_at hs.v cx cy, hblk, havg]
    simp only [List.map_cons, List.map_nil, avgUp_one, List.length_singleton]
  rw [hY, hU, hV] at hpx
  exact ⟨_, _, _, hpx, c34_pixel_round_trip rg _ _ _ r1 gr1 b1⟩

/-! ## Accuracy at the API -/

theorem ycg_lip (rg : YuvRange) {r g b r' g' b' : Rat} (hr : |r - r'| ≤ 1 / 2)
    (hg : |g - g'| ≤ 1 / 2) (hb : |b - b'| ≤ 1 / 2) :
    |ycgCg 8 rg r g b - ycgCg 8 rg r' g' b'| ≤ 1 / 2 ∧
    |ycgCo 8 rg r g b - ycgCo 8 rg r' g' b'| ≤ 1 / 2 := by
  rw [abs_le] at hr hg hb ⊢
  rw [abs_le]
  obtain ⟨r1, r2⟩ := hr
  obtain ⟨g1, g2⟩ := hg
  obtain ⟨b1, b2⟩ := hb
  unfold ycgCg ycgCo offC gainC maxV
  cases rg <;> norm_num <;> refine ⟨⟨?_, ?_⟩, ?_, ?_⟩ <;> linarith

/-- C34 at the API: after a successful encode every luma sample is within 0.52 code values of the
exact YCgCo luma of its pixel, and every chroma sample within 1.02 code values of the exact Cg or Co
of the exact mean of the pixels it covers.  Missing: limited-range chroma samples that cover one
pixel only, for which it is false (`c34_limited_chroma_off`, `c34_gray_not_neutral`). -/
theorem c34_encode_close_partial (ch : Channels) (s : Sampling) (i : Planar) (rgba : Buf)
    (stride : Nat) (rg : YuvRange) (D : Nat) (hi : GoodPlanar i s D)
    (hsrc : GoodDst rgba.length stride i.width i.height ch.count) (hb : Bytes rgba) :
    ∃ out, rgbxToYcgco x64 ch s i rgba stride rg = .ok out ∧
      (∀ x y, x < i.width → y < i.height →
        let px := pixelAt rgba stride ch.count x y
        |(at' out.y i.yStride x y : Rat) - ycgY 8 rg (red ch px) (green ch px) (blue ch px)|
          ≤ 52 / 100) ∧
      (∀ cx cy, cx < cover i.width (hdiv s) → cy < cover i.height (vdiv s) →
        let blk := block rgba stride ch.count i.width i.height (hdiv s) (vdiv s) cx cy
        rg = .full ∨ blk.length ≠ 1 →
        let r := mean (blk.map (red ch))
        let g := mean (blk.map (green ch))
        let b := mean (blk.map (blue ch))
        |(at' out.u i.uStride cx cy : Rat) - ycgCg 8 rg r g b| ≤ 102 / 100 ∧
        |(at' out.v i.vStride cx cy : Rat) - ycgCo 8 rg r g b| ≤ 102 / 100) := by
  obtain ⟨out, e, hs⟩ := c34_encode ch s i rgba stride rg D hi hsrc hb
  refine ⟨out, e, fun x y hx hy => ?_, fun cx cy hx hy => ?_⟩
  · intro px
    rw [frameSpec_at hs.y hx hy]
    obtain ⟨r1, g1, b1⟩ : red ch px < 256 ∧ green ch px < 256 ∧ blue ch px < 256 :=
      comps_lt (by omega) ch (mem_pixelAt hb)
    exact c34_luma_close rg _ _ _ r1 g1 b1
  · intro blk hn r g b
    rw [frameSpec_at hs.u hx hy, frameSpec_at hs.v hx hy]
    obtain ⟨a1, a2⟩ := planarAvg_close hi.wpos hi.hpos hx hy (buf := rgba) (stride := stride)
      (cn := ch.count)
    have lt : ∀ f : Buf → Nat, (∀ px, (∀ a ∈ px, a < 256) → f px < 256) →
        ∀ a ∈ blk.map f, a < 256 := by
      intro f hf a ha
      obtain ⟨px, hpx, rfl⟩ := List.mem_map.1 ha
      exact hf px (mem_block hb px hpx)
    have r1 := a1 _ (lt (red ch) fun px hp => (comps_lt (by omega) ch hp).1)
    have g1 := a1 _ (lt (green ch) fun px hp => (comps_lt (by omega) ch hp).2.1)
    have b1 := a1 _ (lt (blue ch) fun px hp => (comps_lt (by omega) ch hp).2.2)
    have hc : |(cgcoCg8 s rg blk.length (planarAvg i.width i.height s cx cy (blk.map (red ch)))
          (planarAvg i.width i.height s cx cy (blk.map (green ch)))
          (planarAvg i.width i.height s cx cy (blk.map (blue ch))) : Rat) - ycgCg 8 rg
          (planarAvg i.width i.height s cx cy (blk.map (red ch)))
          (planarAvg i.width i.height s cx cy (blk.map (green ch)))
          (planarAvg i.width i.height s cx cy (blk.map (blue ch)))| ≤ 52 / 100 ∧
        |(cgcoCo8 s rg blk.length (planarAvg i.width i.height s cx cy (blk.map (red ch)))
          (planarAvg i.width i.height s cx cy (blk.map (blue ch))) : Rat) - ycgCo 8 rg
          (planarAvg i.width i.height s cx cy (blk.map (red ch)))
          (planarAvg i.width i.height s cx cy (blk.map (green ch)))
          (planarAvg i.width i.height s cx cy (blk.map (blue ch)))| ≤ 52 / 100 := by
      rcases hn with rfl | hn
      · exact c34_full_chroma_close s _ _ _ _ r1 g1 b1
      · exact cgco_chroma_close s rg _ _ _ _ r1 g1 b1 (if_neg hn)
    obtain ⟨l1, l2⟩ := ycg_lip rg (a2 (blk.map (red ch)) (by simp [blk]))
      (a2 (blk.map (green ch)) (by simp [blk])) (a2 (blk.map (blue ch)) (by simp [blk]))
    constructor
    · refine le_trans (abs_sub_le _ _ _) (le_trans (add_le_add hc.1 l1) ?_); norm_num
    · refine le_trans (abs_sub_le _ _ _) (le_trans (add_le_add hc.2 l2) ?_); norm_num

/-! ## C05: what is refused -/

theorem NoErr.putCgco {d : Nat} {c : ChromaRange} {ch : Channels} {a y u v : Nat} {px : Buf} :
    NoErr (putCgco d c ch a y u v px) := by
  unfold Verif.putCgco
  no_err [NoErr.narrowDiff, NoErr.qrshr, NoErr.storePix]

theorem NoErr.cgcoLumaOf {k : Int} {bias : Nat} {px : Int × Int × Int} :
    NoErr (cgcoLumaOf k bias px) := by
  unfold Verif.cgcoLumaOf
  no_err

theorem NoErr.cgcoChromaOf {kr kg kb : Int} {bias : Nat} {r g b : Int} :
    NoErr (cgcoChromaOf kr kg kb bias r g b) := by
  unfold Verif.cgcoChromaOf
  no_err

theorem cgcoBlocks_noErr {ky kuv kr kg kb : Int} {c : ChromaRange} {ch : Channels} :
    BlocksNoErr (cgcoBlocks ky kuv kr kg kb c ch) := by
  constructor <;> intros <;> simp only [cgcoBlocks] <;>
    no_err [NoErr.readRgb, NoErr.cgcoLumaOf, NoErr.cgcoChromaOf, NoErr.avg2, NoErr.avg4]

/-- C05, YCgCo decode. -/
theorem c05_ycgco_decode_rejects (d : Nat) (ch : Channels) (s : Sampling) (i : Planar) (rgba : Buf)
    (stride : Nat) (rg : YuvRange) (hi : i.U32s) (hs : U32 stride) :
    (∃ e, ycgcoToRgbx x64 d ch s i rgba stride rg = .err e) ↔
      ¬ (RgbFits rgba.length stride i.width i.height ch.count ∧ PlanarFits i s) := by
  have hcn : 0 < ch.count ∧ ch.count ≤ 4 := by cases ch <;> decide
  obtain ⟨h1, h2, h3, h4, h5⟩ := id hi
  refine rejects_iff ?_ (checkRgba_no_panic hs h4 h5 hcn.1 hcn.2)
    (c01_planar_check_no_panic i s hi) (c02_rgba_check_iff _ _ _ _ _ hs h4 h5 hcn.1 hcn.2)
    (c01_planar_check_iff i s hi)
  cases s
  · exact .decode420 (fun _ _ _ _ => .putCgco) (fun _ _ _ _ => .putCgco) (fun _ _ _ _ => .ok)
      (fun _ _ _ _ _ _ => .ok)
  · exact .decode422 (fun _ _ _ _ => .putCgco) (fun _ _ _ _ => .ok)
  · exact .decode444 (fun _ _ _ _ => .putCgco) (fun _ _ _ _ => .ok)

/-- C05, YCgCo decode with an alpha plane. -/
theorem c05_ycgco_alpha_decode_rejects (d : Nat) (ch : Channels) (hch : ch = .rgba ∨ ch = .bgra)
    (s : Sampling) (i : PlanarAlpha) (rgba : Buf) (stride : Nat) (rg : YuvRange)
    (hi : PlanarAlphaU32 i) (hs : U32 stride) :
    (∃ e, ycgcoAlphaToRgbx x64 d ch s i rgba stride rg = .err e) ↔
      ¬ (RgbFits rgba.length stride i.width i.height ch.count ∧ PlanarAlphaFits i s) := by
  have hcn : 0 < ch.count ∧ ch.count ≤ 4 := by cases ch <;> decide
  have ha : ¬ ch.hasAlpha = false := by rcases hch with rfl | rfl <;> decide
  obtain ⟨_, _, _, _, h5, h6⟩ := id hi
  unfold ycgcoAlphaToRgbx
  rw [if_neg ha]
  exact rejects_iff (.alphaFrame (fun _ _ _ _ _ => .putCgco) (fun _ _ _ _ _ => .ok))
    (checkRgba_no_panic hs h5 h6 hcn.1 hcn.2) (planarAlpha_no_panic hi)
    (c02_rgba_check_iff _ _ _ _ _ hs h5 h6 hcn.1 hcn.2) (c01_planar_alpha_check_iff i s hi)

/-- C05, YCgCo encode. -/
theorem c05_ycgco_encode_rejects (ch : Channels) (s : Sampling) (i : Planar) (rgba : Buf)
    (stride : Nat) (rg : YuvRange) (hi : i.U32s) (hs : U32 stride) :
    (∃ e, rgbxToYcgco x64 ch s i rgba stride rg = .err e) ↔
      ¬ (RgbFits rgba.length stride i.width i.height ch.count ∧ PlanarFits i s) := by
  have hcn : 0 < ch.count ∧ ch.count ≤ 4 := by cases ch <;> decide
  obtain ⟨h1, h2, h3, h4, h5⟩ := id hi
  refine rejects_iff ?_ (checkRgba_no_panic hs h4 h5 hcn.1 hcn.2)
    (c01_planar_check_no_panic i s hi) (c02_rgba_check_iff _ _ _ _ _ hs h4 h5 hcn.1 hcn.2)
    (c01_planar_check_iff i s hi)
  cases s
  · exact .bind (.encode420 cgcoBlocks_noErr (fun _ _ _ _ => .ok) (fun _ _ _ _ _ _ => .ok))
      fun _ => .pure
  · exact .bind (.encode422 cgcoBlocks_noErr (fun _ _ _ _ => .ok)) fun _ => .pure
  · exact .bind (.encode444 cgcoBlocks_noErr (fun _ _ _ _ => .ok)) fun _ => .pure

/-! ## The hypotheses are met -/

example : ycgcoToRgbx x64 8 .rgb .yuv420 demo420 (List.replicate 30 7) 10 .limited = .ok
    [0, 0, 0, 76, 76, 76, 255, 107, 66, 7, 29, 29, 29, 226, 226, 226, 255, 62, 21, 7,
     157, 95, 255, 232, 171, 255, 0, 255, 23, 7] := by decide +kernel
example : ycgcoAlphaToRgbx x64 8 .bgra .yuv420 demoAlpha (List.replicate 39 7) 13 .limited = .ok
    [0, 0, 0, 255, 76, 76, 76, 128, 66, 107, 255, 0, 7,
     29, 29, 29, 1, 226, 226, 226, 77, 21, 62, 255, 200, 7,
     255, 95, 157, 254, 255, 171, 232, 3, 23, 255, 0, 100, 7] := by decide +kernel

example : rgbxToYcgco x64 .rgb .yuv420 demoDst420 demoRgb 11 .full = .ok { demoDst420 with
      y := [64, 127, 64, 7, 255, 0, 128, 7, 125, 30, 184, 7, 7]
      u := [144, 96, 7, 165, 184, 7]
      v := [160, 64, 103, 250] } := by decide +kernel

end Verif
