import Verif.Model.Core
import Verif.Model.Support
import Verif.Model.Tables
import Verif.Model.F32
import Verif.Model.Checks
import Verif.Lemmas.Chunks
import Verif.Spec.Geometry
import Verif.Lemmas.Checks
import Verif.Props.Validation
import Verif.Spec.Itu
import Verif.Lemmas.Finite
import Verif.Props.Coefficients
import Verif.Model.Kernels
import Verif.Lemmas.Kernels
import Verif.Lemmas.Rounding
import Verif.Props.DecodeArith
import Verif.Props.EncodeArith
import Verif.Spec.Frame
import Verif.Spec.Vector
import Verif.Spec.Images
import Verif.Spec.Schedule
import Verif.Model.Loops
import Verif.Model.YuvToRgba
import Verif.Lemmas.Loops
import Verif.Lemmas.Frames
import Verif.Lemmas.Decode
import Verif.Lemmas.Good
import Verif.Lemmas.Schedule
import Verif.Props.PlanarDecode
import Verif.Props.Schedule
import Verif.Model.NvToRgba
import Verif.Lemmas.Remainder
import Verif.Lemmas.NvDecode
import Verif.Props.NvDecode
import Verif.Model.EncodeLoops
import Verif.Model.RgbaToYuv
import Verif.Spec.Encode
import Verif.Spec.EncodeVector
import Verif.Lemmas.Fill
import Verif.Lemmas.EncodeRows
import Verif.Lemmas.NvEncodeRows
import Verif.Lemmas.FillRows
import Verif.Lemmas.EncodeFrames
import Verif.Lemmas.NvEncodeFrames
import Verif.Lemmas.EncodeBlocks
import Verif.Props.PlanarEncode
import Verif.Props.NvEncode
import Verif.Lemmas.NoErr
import Verif.Props.Errors
import Verif.Model.DeepToRgba
import Verif.Spec.Deep
import Verif.Lemmas.DeepDecode
import Verif.Lemmas.DeepFrames
import Verif.Props.DeepDecode
import Verif.Model.DeepFromRgba
import Verif.Spec.DeepEncode
import Verif.Lemmas.DeepEncode
import Verif.Props.DeepEncode
import Verif.Lemmas.PixelMap
import Verif.Model.Gray
import Verif.Spec.Gray
import Verif.Lemmas.Gray
import Verif.Props.Gray
import Verif.Model.Identity
import Verif.Spec.Identity
import Verif.Props.Identity
import Verif.Model.Shuffle
import Verif.Spec.Shuffle
import Verif.Props.Shuffle
import Verif.Props.Packed444
import Verif.Model.AlphaToRgba
import Verif.Spec.Alpha
import Verif.Lemmas.AlphaDecode
import Verif.Props.Alpha
import Verif.Model.Ycgco
import Verif.Spec.Ycgco
import Verif.Props.Ycgco
import Verif.Model.Ar30
import Verif.Spec.Ar30
import Verif.Props.Ar30
import Verif.Props.DeepErrors
import Verif.Model.Yuy2
import Verif.Spec.Yuy2
import Verif.Lemmas.Yuy2
import Verif.Lemmas.Yuy2Unpack
import Verif.Props.Yuy2
import Verif.Props.Yuy2Errors
import Verif.Model.Sharp
import Verif.Spec.Sharp
import Verif.Lemmas.Sharp
import Verif.Lemmas.SharpFrames
import Verif.Props.Sharp
import Verif.Model.Turn
import Verif.Spec.Turn
import Verif.Props.Turn
import Verif.Model.F16
import Verif.Spec.F16
import Verif.Lemmas.F16
import Verif.Props.F16Arith
import Verif.Props.F16
import Verif.Props.Api
import Verif.Model.X86
import Verif.Model.X86Rgb
import Verif.Model.X86Decode
import Verif.Spec.VecDecode
import Verif.Lemmas.X86
import Verif.Lemmas.X86Decode
import Verif.Lemmas.X86Rows
import Verif.Lemmas.X86Handlers
import Verif.Lemmas.VecArith
import Verif.Props.X86Decode
import Verif.Model.X86NvDecode
import Verif.Lemmas.X86NvRows
import Verif.Lemmas.X86NvHandlers
import Verif.Props.X86NvDecode
import Verif.Model.X86Load
import Verif.Model.X86Encode
import Verif.Spec.VecEncode
import Verif.Lemmas.X86Load
import Verif.Lemmas.X86EncArith
import Verif.Lemmas.X86EncRows
import Verif.Lemmas.X86EncBodies
import Verif.Lemmas.X86EncPlanar
import Verif.Lemmas.X86EncHandlers
import Verif.Lemmas.VecEncode
import Verif.Lemmas.VecEncodeItu
import Verif.Props.X86Encode
import Verif.Model.X86NvEncode
import Verif.Lemmas.X86NvEncBodies
import Verif.Lemmas.X86NvEncHandlers
import Verif.Props.X86NvEncode
import Verif.Model.X86Alpha
import Verif.Spec.VecAlpha
import Verif.Lemmas.X86Alpha
import Verif.Props.X86Alpha
import Verif.Model.X86Gray
import Verif.Spec.VecGray
import Verif.Lemmas.X86Gray
import Verif.Props.X86Gray
import Verif.Model.X86Shuffle
import Verif.Lemmas.X86Shuffle
import Verif.Props.X86Shuffle
import Verif.Model.X86Gbr
import Verif.Lemmas.X86Gbr
import Verif.Spec.VecGbr
import Verif.Props.X86Gbr
import Verif.Model.X86Yuy2
import Verif.Spec.VecYuy2
import Verif.Lemmas.X86Yuy2
import Verif.Props.X86Yuy2
import Verif.Lemmas.X86Yuy2Unpack
import Verif.Lemmas.X86Yuy2Rows
import Verif.Props.X86Yuy2Unpack
import Verif.Model.X86YuyRgb
import Verif.Lemmas.X86YuyRgb
import Verif.Lemmas.X86YuyRgbRows
import Verif.Props.X86YuyRgb
import Verif.Model.X86Ayuv
import Verif.Lemmas.X86Ayuv
import Verif.Props.X86Ayuv
import Verif.Props.X86Rdp
import Verif.Model.X86Deep
import Verif.Spec.VecDeep
import Verif.Lemmas.X86Deep
import Verif.Lemmas.X86DeepArith
import Verif.Lemmas.X86DeepRows
import Verif.Props.X86Deep
import Verif.Model.X86Deep8
import Verif.Spec.VecDeep8
import Verif.Lemmas.X86Deep8
import Verif.Props.X86Deep8
import Verif.Model.X86DeepAlpha
import Verif.Spec.VecDeepAlpha
import Verif.Lemmas.X86DeepAlpha
import Verif.Lemmas.X86DeepAlpha8
import Verif.Props.X86DeepAlpha
import Verif.Lemmas.NvRows
import Verif.Model.X86NvDeep
import Verif.Spec.VecNvDeep
import Verif.Lemmas.X86NvDeep
import Verif.Props.X86NvDeep
import Verif.Model.X86DeepEncode
import Verif.Spec.VecDeepEncode
import Verif.Lemmas.X86EncValues
import Verif.Lemmas.X86DeepEncArith
import Verif.Lemmas.X86DeepEncBodies
import Verif.Lemmas.EncodeExact
import Verif.Lemmas.X86DeepEncFrames
import Verif.Props.X86DeepEncode
import Verif.Props.X86DeepRoundTrip
import Verif.Props.X86Parts
import Verif.Props.X86Prof
import Verif.Props.X86Fast
import Verif.Props.X86NvModes
import Verif.Spec.WasmDecode
import Verif.Model.Wasm
import Verif.Lemmas.Wasm
import Verif.Lemmas.WasmRows
import Verif.Lemmas.Accept
import Verif.Props.Wasm
import Verif.Spec.NeonDecode
import Verif.Model.Neon
import Verif.Lemmas.Neon
import Verif.Lemmas.NeonRows
import Verif.Props.Neon
import Verif.Spec.NeonEncode
import Verif.Model.NeonEncode
import Verif.Lemmas.NeonEncode
import Verif.Lemmas.NeonEncodeRows
import Verif.Lemmas.NeonEncodeVals
import Verif.Props.NeonEncode
import Verif.Model.NeonYcgco
import Verif.Lemmas.NeonYcgco
import Verif.Props.NeonYcgco
import Verif.Model.NeonAlpha
import Verif.Spec.NeonAlpha
import Verif.Lemmas.NeonAlpha
import Verif.Props.NeonAlpha
import Verif.Model.NeonShuffle
import Verif.Lemmas.NeonShuffle
import Verif.Props.NeonShuffle
import Verif.Model.NeonGray
import Verif.Spec.NeonGray
import Verif.Lemmas.NeonGray
import Verif.Props.NeonGray
import Verif.Model.NeonGbr
import Verif.Lemmas.NeonGbr
import Verif.Props.NeonGbr
import Verif.Model.NeonYuy2
import Verif.Spec.NeonYuy2
import Verif.Lemmas.NeonYuy2
import Verif.Props.NeonYuy2
import Verif.Model.NeonYuyRgb
import Verif.Spec.NeonYuyRgb
import Verif.Lemmas.NeonYuyRgb
import Verif.Props.NeonYuyRgb
import Verif.Model.NeonAyuv
import Verif.Spec.NeonAyuv
import Verif.Lemmas.NeonAyuv
import Verif.Props.NeonAyuv
import Verif.Model.NeonNvModes
import Verif.Spec.NeonNvModes
import Verif.Lemmas.NeonNvModes
import Verif.Props.NeonNvModes
import Verif.Model.NeonDeep8
import Verif.Spec.NeonDeep8
import Verif.Lemmas.NeonDeep8
import Verif.Props.NeonDeep8
import Verif.Model.NeonGrayDeep
import Verif.Lemmas.NeonGrayDeep
import Verif.Props.NeonGrayDeep
import Verif.Spec.NeonDeep16
import Verif.Model.NeonDeep16
import Verif.Lemmas.NeonDeep16
import Verif.Props.NeonDeep16
import Verif.Model.NeonNvDeep16
import Verif.Lemmas.NeonNvDeep16
import Verif.Props.NeonNvDeep16
import Verif.Spec.NeonDeepEncode
import Verif.Model.NeonDeepEncode
import Verif.Lemmas.NeonDeepEncArith
import Verif.Lemmas.NeonDeepEncode
import Verif.Props.NeonDeepEncode
import Verif.Spec.NeonNvP10
import Verif.Model.NeonNvP10
import Verif.Lemmas.NeonNvP10
import Verif.Props.NeonNvP10
import Verif.Spec.NeonDeepAlpha
import Verif.Model.NeonDeepAlpha
import Verif.Lemmas.NeonDeepAlpha
import Verif.Props.NeonDeepAlpha
import Verif.Spec.NeonDeepAlpha16
import Verif.Model.NeonDeepAlpha16
import Verif.Lemmas.NeonDeepAlpha16
import Verif.Props.NeonDeepAlpha16
import Verif.Spec.NeonAr30
import Verif.Model.NeonAr30
import Verif.Lemmas.NeonAr30
import Verif.Props.NeonAr30
