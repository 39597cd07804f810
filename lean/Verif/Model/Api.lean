import Verif.Model.ApiCall

/-! The dispatch table: for every public conversion function, the worker it
calls and the compile-time constants it passes.  One list per source file;
each row cites the lines that define the function (for functions produced by a
macro: the lines of the macro invocation). -/

namespace Verif

/-- The public functions of /repo/src/yuv_nv_p10_to_rgb.rs. -/
def api_yuv_nv_p10_to_rgb : List ApiRow := [
  -- /repo/src/yuv_nv_p10_to_rgb.rs:635-642
  ⟨w!"p010_to_bgr", .call (.nvP10ToRgb .bgr .uv .yuv420 .little .msb)⟩,
  -- /repo/src/yuv_nv_p10_to_rgb.rs:643-650
  ⟨w!"p010_to_bgra", .call (.nvP10ToRgb .bgra .uv .yuv420 .little .msb)⟩,
  -- /repo/src/yuv_nv_p10_to_rgb.rs:627-634
  ⟨w!"p010_to_rgb", .call (.nvP10ToRgb .rgb .uv .yuv420 .little .msb)⟩,
  -- /repo/src/yuv_nv_p10_to_rgb.rs:619-626
  ⟨w!"p010_to_rgba", .call (.nvP10ToRgb .rgba .uv .yuv420 .little .msb)⟩,
  -- /repo/src/yuv_nv_p10_to_rgb.rs:668-675
  ⟨w!"p210_to_bgr", .call (.nvP10ToRgb .bgr .uv .yuv422 .little .msb)⟩,
  -- /repo/src/yuv_nv_p10_to_rgb.rs:676-683
  ⟨w!"p210_to_bgra", .call (.nvP10ToRgb .bgra .uv .yuv422 .little .msb)⟩,
  -- /repo/src/yuv_nv_p10_to_rgb.rs:660-667
  ⟨w!"p210_to_rgb", .call (.nvP10ToRgb .rgb .uv .yuv422 .little .msb)⟩,
  -- /repo/src/yuv_nv_p10_to_rgb.rs:652-659
  ⟨w!"p210_to_rgba", .call (.nvP10ToRgb .rgba .uv .yuv422 .little .msb)⟩,
  -- /repo/src/yuv_nv_p10_to_rgb.rs:701-708
  ⟨w!"p410_to_bgr", .call (.nvP10ToRgb .bgr .uv .yuv444 .little .msb)⟩,
  -- /repo/src/yuv_nv_p10_to_rgb.rs:709-716
  ⟨w!"p410_to_bgra", .call (.nvP10ToRgb .bgra .uv .yuv444 .little .msb)⟩,
  -- /repo/src/yuv_nv_p10_to_rgb.rs:693-700
  ⟨w!"p410_to_rgb", .call (.nvP10ToRgb .rgb .uv .yuv444 .little .msb)⟩,
  -- /repo/src/yuv_nv_p10_to_rgb.rs:685-692
  ⟨w!"p410_to_rgba", .call (.nvP10ToRgb .rgba .uv .yuv444 .little .msb)⟩]

/-- The public functions of /repo/src/yuv_nv_p16_to_rgb16.rs. -/
def api_yuv_nv_p16_to_rgb16 : List ApiRow := [
  -- /repo/src/yuv_nv_p16_to_rgb16.rs:456-463
  ⟨w!"p010_to_rgb10", .call (.nvP16ToRgb16 .rgb .uv .yuv420 .little .msb 10)⟩,
  -- /repo/src/yuv_nv_p16_to_rgb16.rs:448-455
  ⟨w!"p010_to_rgba10", .call (.nvP16ToRgb16 .rgba .uv .yuv420 .little .msb 10)⟩,
  -- /repo/src/yuv_nv_p16_to_rgb16.rs:505-512
  ⟨w!"p012_to_rgb12", .call (.nvP16ToRgb16 .rgb .uv .yuv420 .little .msb 12)⟩,
  -- /repo/src/yuv_nv_p16_to_rgb16.rs:497-504
  ⟨w!"p012_to_rgba12", .call (.nvP16ToRgb16 .rgba .uv .yuv420 .little .msb 12)⟩,
  -- /repo/src/yuv_nv_p16_to_rgb16.rs:472-479
  ⟨w!"p210_to_rgb10", .call (.nvP16ToRgb16 .rgb .uv .yuv422 .little .msb 10)⟩,
  -- /repo/src/yuv_nv_p16_to_rgb16.rs:464-471
  ⟨w!"p210_to_rgba10", .call (.nvP16ToRgb16 .rgba .uv .yuv422 .little .msb 10)⟩,
  -- /repo/src/yuv_nv_p16_to_rgb16.rs:521-528
  ⟨w!"p212_to_rgb12", .call (.nvP16ToRgb16 .rgb .uv .yuv422 .little .msb 12)⟩,
  -- /repo/src/yuv_nv_p16_to_rgb16.rs:513-520
  ⟨w!"p212_to_rgba12", .call (.nvP16ToRgb16 .rgba .uv .yuv422 .little .msb 12)⟩,
  -- /repo/src/yuv_nv_p16_to_rgb16.rs:488-495
  ⟨w!"p410_to_rgb10", .call (.nvP16ToRgb16 .rgb .uv .yuv444 .little .msb 10)⟩,
  -- /repo/src/yuv_nv_p16_to_rgb16.rs:480-487
  ⟨w!"p410_to_rgba10", .call (.nvP16ToRgb16 .rgba .uv .yuv444 .little .msb 10)⟩,
  -- /repo/src/yuv_nv_p16_to_rgb16.rs:537-544
  ⟨w!"p412_to_rgb12", .call (.nvP16ToRgb16 .rgb .uv .yuv444 .little .msb 12)⟩,
  -- /repo/src/yuv_nv_p16_to_rgb16.rs:529-536
  ⟨w!"p412_to_rgba12", .call (.nvP16ToRgb16 .rgba .uv .yuv444 .little .msb 12)⟩]

/-- The public functions of /repo/src/yuv_nv_to_rgba.rs. -/
def api_yuv_nv_to_rgba : List ApiRow := [
  -- /repo/src/yuv_nv_to_rgba.rs:1500-1513
  ⟨w!"yuv_nv12_to_bgr", .call (.nvToRgb .uv .bgr .yuv420)⟩,
  -- /repo/src/yuv_nv_to_rgba.rs:1203-1216
  ⟨w!"yuv_nv12_to_bgra", .call (.nvToRgb .uv .bgra .yuv420)⟩,
  -- /repo/src/yuv_nv_to_rgba.rs:1467-1480
  ⟨w!"yuv_nv12_to_rgb", .call (.nvToRgb .uv .rgb .yuv420)⟩,
  -- /repo/src/yuv_nv_to_rgba.rs:1401-1414
  ⟨w!"yuv_nv12_to_rgba", .call (.nvToRgb .uv .rgba .yuv420)⟩,
  -- /repo/src/yuv_nv_to_rgba.rs:1698-1711
  ⟨w!"yuv_nv21_to_bgr", .call (.nvToRgb .vu .bgr .yuv420)⟩,
  -- /repo/src/yuv_nv_to_rgba.rs:1302-1315
  ⟨w!"yuv_nv21_to_bgra", .call (.nvToRgb .vu .bgra .yuv420)⟩,
  -- /repo/src/yuv_nv_to_rgba.rs:1665-1678
  ⟨w!"yuv_nv21_to_rgb", .call (.nvToRgb .vu .rgb .yuv420)⟩,
  -- /repo/src/yuv_nv_to_rgba.rs:1434-1447
  ⟨w!"yuv_nv21_to_rgba", .call (.nvToRgb .vu .rgba .yuv420)⟩,
  -- /repo/src/yuv_nv_to_rgba.rs:1797-1810
  ⟨w!"yuv_nv24_to_bgr", .call (.nvToRgb .uv .bgr .yuv444)⟩,
  -- /repo/src/yuv_nv_to_rgba.rs:1863-1876
  ⟨w!"yuv_nv24_to_bgra", .call (.nvToRgb .uv .bgra .yuv444)⟩,
  -- /repo/src/yuv_nv_to_rgba.rs:1764-1777
  ⟨w!"yuv_nv24_to_rgb", .call (.nvToRgb .uv .rgb .yuv444)⟩,
  -- /repo/src/yuv_nv_to_rgba.rs:1830-1843
  ⟨w!"yuv_nv24_to_rgba", .call (.nvToRgb .uv .rgba .yuv444)⟩,
  -- /repo/src/yuv_nv_to_rgba.rs:1929-1942
  ⟨w!"yuv_nv42_to_bgr", .call (.nvToRgb .vu .bgr .yuv444)⟩,
  -- /repo/src/yuv_nv_to_rgba.rs:1962-1975
  ⟨w!"yuv_nv42_to_bgra", .call (.nvToRgb .vu .bgra .yuv444)⟩,
  -- /repo/src/yuv_nv_to_rgba.rs:1896-1909
  ⟨w!"yuv_nv42_to_rgb", .call (.nvToRgb .vu .rgb .yuv444)⟩,
  -- /repo/src/yuv_nv_to_rgba.rs:1731-1744
  ⟨w!"yuv_nv42_to_rgba", .call (.nvToRgb .vu .rgba .yuv444)⟩,
  -- /repo/src/yuv_nv_to_rgba.rs:1566-1579
  ⟨w!"yuv_nv16_to_bgr", .call (.nvToRgb .uv .bgr .yuv422)⟩,
  -- /repo/src/yuv_nv_to_rgba.rs:1236-1249
  ⟨w!"yuv_nv16_to_bgra", .call (.nvToRgb .uv .bgra .yuv422)⟩,
  -- /repo/src/yuv_nv_to_rgba.rs:1533-1546
  ⟨w!"yuv_nv16_to_rgb", .call (.nvToRgb .uv .rgb .yuv422)⟩,
  -- /repo/src/yuv_nv_to_rgba.rs:1335-1348
  ⟨w!"yuv_nv16_to_rgba", .call (.nvToRgb .uv .rgba .yuv422)⟩,
  -- /repo/src/yuv_nv_to_rgba.rs:1632-1645
  ⟨w!"yuv_nv61_to_bgr", .call (.nvToRgb .vu .bgr .yuv422)⟩,
  -- /repo/src/yuv_nv_to_rgba.rs:1269-1282
  ⟨w!"yuv_nv61_to_bgra", .call (.nvToRgb .vu .bgra .yuv422)⟩,
  -- /repo/src/yuv_nv_to_rgba.rs:1599-1612
  ⟨w!"yuv_nv61_to_rgb", .call (.nvToRgb .vu .rgb .yuv422)⟩,
  -- /repo/src/yuv_nv_to_rgba.rs:1368-1381
  ⟨w!"yuv_nv61_to_rgba", .call (.nvToRgb .vu .rgba .yuv422)⟩]

/-- The public functions of /repo/src/rgba_to_nv.rs. -/
def api_rgba_to_nv : List ApiRow := [
  -- /repo/src/rgba_to_nv.rs:1334-1347
  ⟨w!"bgr_to_yuv_nv12", .call (.rgbToNv .bgr .uv .yuv420)⟩,
  -- /repo/src/rgba_to_nv.rs:1070-1083
  ⟨w!"bgr_to_yuv_nv16", .call (.rgbToNv .bgr .uv .yuv422)⟩,
  -- /repo/src/rgba_to_nv.rs:1367-1380
  ⟨w!"bgr_to_yuv_nv21", .call (.rgbToNv .bgr .vu .yuv420)⟩,
  -- /repo/src/rgba_to_nv.rs:1598-1611
  ⟨w!"bgr_to_yuv_nv24", .call (.rgbToNv .bgr .uv .yuv444)⟩,
  -- /repo/src/rgba_to_nv.rs:1631-1644
  ⟨w!"bgr_to_yuv_nv42", .call (.rgbToNv .bgr .vu .yuv444)⟩,
  -- /repo/src/rgba_to_nv.rs:1103-1116
  ⟨w!"bgr_to_yuv_nv61", .call (.rgbToNv .bgr .vu .yuv422)⟩,
  -- /repo/src/rgba_to_nv.rs:1466-1479
  ⟨w!"bgra_to_yuv_nv12", .call (.rgbToNv .bgra .uv .yuv420)⟩,
  -- /repo/src/rgba_to_nv.rs:1202-1215
  ⟨w!"bgra_to_yuv_nv16", .call (.rgbToNv .bgra .uv .yuv422)⟩,
  -- /repo/src/rgba_to_nv.rs:1499-1512
  ⟨w!"bgra_to_yuv_nv21", .call (.rgbToNv .bgra .vu .yuv420)⟩,
  -- /repo/src/rgba_to_nv.rs:1730-1743
  ⟨w!"bgra_to_yuv_nv24", .call (.rgbToNv .bgra .uv .yuv444)⟩,
  -- /repo/src/rgba_to_nv.rs:1763-1776
  ⟨w!"bgra_to_yuv_nv42", .call (.rgbToNv .bgra .vu .yuv444)⟩,
  -- /repo/src/rgba_to_nv.rs:1235-1248
  ⟨w!"bgra_to_yuv_nv61", .call (.rgbToNv .bgra .vu .yuv422)⟩,
  -- /repo/src/rgba_to_nv.rs:1268-1281
  ⟨w!"rgb_to_yuv_nv12", .call (.rgbToNv .rgb .uv .yuv420)⟩,
  -- /repo/src/rgba_to_nv.rs:1004-1017
  ⟨w!"rgb_to_yuv_nv16", .call (.rgbToNv .rgb .uv .yuv422)⟩,
  -- /repo/src/rgba_to_nv.rs:1301-1314
  ⟨w!"rgb_to_yuv_nv21", .call (.rgbToNv .rgb .vu .yuv420)⟩,
  -- /repo/src/rgba_to_nv.rs:1532-1545
  ⟨w!"rgb_to_yuv_nv24", .call (.rgbToNv .rgb .uv .yuv444)⟩,
  -- /repo/src/rgba_to_nv.rs:1565-1578
  ⟨w!"rgb_to_yuv_nv42", .call (.rgbToNv .rgb .vu .yuv444)⟩,
  -- /repo/src/rgba_to_nv.rs:1037-1050
  ⟨w!"rgb_to_yuv_nv61", .call (.rgbToNv .rgb .vu .yuv422)⟩,
  -- /repo/src/rgba_to_nv.rs:1400-1413
  ⟨w!"rgba_to_yuv_nv12", .call (.rgbToNv .rgba .uv .yuv420)⟩,
  -- /repo/src/rgba_to_nv.rs:1136-1149
  ⟨w!"rgba_to_yuv_nv16", .call (.rgbToNv .rgba .uv .yuv422)⟩,
  -- /repo/src/rgba_to_nv.rs:1433-1446
  ⟨w!"rgba_to_yuv_nv21", .call (.rgbToNv .rgba .vu .yuv420)⟩,
  -- /repo/src/rgba_to_nv.rs:1664-1677
  ⟨w!"rgba_to_yuv_nv24", .call (.rgbToNv .rgba .uv .yuv444)⟩,
  -- /repo/src/rgba_to_nv.rs:1697-1710
  ⟨w!"rgba_to_yuv_nv42", .call (.rgbToNv .rgba .vu .yuv444)⟩,
  -- /repo/src/rgba_to_nv.rs:1169-1182
  ⟨w!"rgba_to_yuv_nv61", .call (.rgbToNv .rgba .vu .yuv422)⟩]

/-- The public functions of /repo/src/yuv_to_rgba.rs. -/
def api_yuv_to_rgba : List ApiRow := [
  -- /repo/src/yuv_to_rgba.rs:835-849
  ⟨w!"yuv420_to_bgr", .call (.yuvToRgb .bgr .yuv420)⟩,
  -- /repo/src/yuv_to_rgba.rs:903-917
  ⟨w!"yuv420_to_bgra", .call (.yuvToRgb .bgra .yuv420)⟩,
  -- /repo/src/yuv_to_rgba.rs:801-815
  ⟨w!"yuv420_to_rgb", .call (.yuvToRgb .rgb .yuv420)⟩,
  -- /repo/src/yuv_to_rgba.rs:869-883
  ⟨w!"yuv420_to_rgba", .call (.yuvToRgb .rgba .yuv420)⟩,
  -- /repo/src/yuv_to_rgba.rs:971-985
  ⟨w!"yuv422_to_bgr", .call (.yuvToRgb .bgr .yuv422)⟩,
  -- /repo/src/yuv_to_rgba.rs:1039-1053
  ⟨w!"yuv422_to_bgra", .call (.yuvToRgb .bgra .yuv422)⟩,
  -- /repo/src/yuv_to_rgba.rs:937-951
  ⟨w!"yuv422_to_rgb", .call (.yuvToRgb .rgb .yuv422)⟩,
  -- /repo/src/yuv_to_rgba.rs:1005-1019
  ⟨w!"yuv422_to_rgba", .call (.yuvToRgb .rgba .yuv422)⟩,
  -- /repo/src/yuv_to_rgba.rs:1176-1190
  ⟨w!"yuv444_to_bgr", .call (.yuvToRgb .bgr .yuv444)⟩,
  -- /repo/src/yuv_to_rgba.rs:1108-1122
  ⟨w!"yuv444_to_bgra", .call (.yuvToRgb .bgra .yuv444)⟩,
  -- /repo/src/yuv_to_rgba.rs:1142-1156
  ⟨w!"yuv444_to_rgb", .call (.yuvToRgb .rgb .yuv444)⟩,
  -- /repo/src/yuv_to_rgba.rs:1073-1087
  ⟨w!"yuv444_to_rgba", .call (.yuvToRgb .rgba .yuv444)⟩]

/-- The public functions of /repo/src/rgba_to_yuv.rs. -/
def api_rgba_to_yuv : List ApiRow := [
  -- /repo/src/rgba_to_yuv.rs:1296-1312
  ⟨w!"bgr_to_yuv420", .call (.rgbToYuv .bgr .yuv420)⟩,
  -- /repo/src/rgba_to_yuv.rs:1148-1164
  ⟨w!"bgr_to_yuv422", .call (.rgbToYuv .bgr .yuv422)⟩,
  -- /repo/src/rgba_to_yuv.rs:1444-1460
  ⟨w!"bgr_to_yuv444", .call (.rgbToYuv .bgr .yuv444)⟩,
  -- /repo/src/rgba_to_yuv.rs:1370-1386
  ⟨w!"bgra_to_yuv420", .call (.rgbToYuv .bgra .yuv420)⟩,
  -- /repo/src/rgba_to_yuv.rs:1222-1238
  ⟨w!"bgra_to_yuv422", .call (.rgbToYuv .bgra .yuv422)⟩,
  -- /repo/src/rgba_to_yuv.rs:1518-1534
  ⟨w!"bgra_to_yuv444", .call (.rgbToYuv .bgra .yuv444)⟩,
  -- /repo/src/rgba_to_yuv.rs:1259-1275
  ⟨w!"rgb_to_yuv420", .call (.rgbToYuv .rgb .yuv420)⟩,
  -- /repo/src/rgba_to_yuv.rs:1111-1127
  ⟨w!"rgb_to_yuv422", .call (.rgbToYuv .rgb .yuv422)⟩,
  -- /repo/src/rgba_to_yuv.rs:1407-1423
  ⟨w!"rgb_to_yuv444", .call (.rgbToYuv .rgb .yuv444)⟩,
  -- /repo/src/rgba_to_yuv.rs:1333-1349
  ⟨w!"rgba_to_yuv420", .call (.rgbToYuv .rgba .yuv420)⟩,
  -- /repo/src/rgba_to_yuv.rs:1185-1201
  ⟨w!"rgba_to_yuv422", .call (.rgbToYuv .rgba .yuv422)⟩,
  -- /repo/src/rgba_to_yuv.rs:1481-1497
  ⟨w!"rgba_to_yuv444", .call (.rgbToYuv .rgba .yuv444)⟩]

/-- The public functions of /repo/src/rgb16_to_yuv_p16.rs. -/
def api_rgb16_to_yuv_p16 : List ApiRow := [
  -- /repo/src/rgb16_to_yuv_p16.rs:904-913
  ⟨w!"rgb10_to_i010", .call (.rgb16ToYuv16 .rgb .yuv420 .little .lsb 10 15)⟩,
  -- /repo/src/rgb16_to_yuv_p16.rs:948-957
  ⟨w!"rgb10_to_i210", .call (.rgb16ToYuv16 .rgb .yuv422 .little .lsb 10 15)⟩,
  -- /repo/src/rgb16_to_yuv_p16.rs:992-1001
  ⟨w!"rgb10_to_i410", .call (.rgb16ToYuv16 .rgb .yuv444 .little .lsb 10 15)⟩,
  -- /repo/src/rgb16_to_yuv_p16.rs:1036-1045
  ⟨w!"rgb12_to_i012", .call (.rgb16ToYuv16 .rgb .yuv420 .little .lsb 12 15)⟩,
  -- /repo/src/rgb16_to_yuv_p16.rs:1080-1089
  ⟨w!"rgb12_to_i212", .call (.rgb16ToYuv16 .rgb .yuv422 .little .lsb 12 15)⟩,
  -- /repo/src/rgb16_to_yuv_p16.rs:1124-1133
  ⟨w!"rgb12_to_i412", .call (.rgb16ToYuv16 .rgb .yuv444 .little .lsb 12 15)⟩,
  -- /repo/src/rgb16_to_yuv_p16.rs:1168-1177
  ⟨w!"rgb14_to_i014", .call (.rgb16ToYuv16 .rgb .yuv420 .little .lsb 14 15)⟩,
  -- /repo/src/rgb16_to_yuv_p16.rs:1211-1220
  ⟨w!"rgb14_to_i214", .call (.rgb16ToYuv16 .rgb .yuv422 .little .lsb 14 15)⟩,
  -- /repo/src/rgb16_to_yuv_p16.rs:1255-1264
  ⟨w!"rgb14_to_i414", .call (.rgb16ToYuv16 .rgb .yuv444 .little .lsb 14 15)⟩,
  -- /repo/src/rgb16_to_yuv_p16.rs:1299-1308
  ⟨w!"rgb16_to_i016", .call (.rgb16ToYuv16 .rgb .yuv420 .little .lsb 16 15)⟩,
  -- /repo/src/rgb16_to_yuv_p16.rs:1342-1351
  ⟨w!"rgb16_to_i216", .call (.rgb16ToYuv16 .rgb .yuv422 .little .lsb 16 15)⟩,
  -- /repo/src/rgb16_to_yuv_p16.rs:1386-1395
  ⟨w!"rgb16_to_i416", .call (.rgb16ToYuv16 .rgb .yuv444 .little .lsb 16 15)⟩,
  -- /repo/src/rgb16_to_yuv_p16.rs:882-891
  ⟨w!"rgba10_to_i010", .call (.rgb16ToYuv16 .rgba .yuv420 .little .lsb 10 15)⟩,
  -- /repo/src/rgb16_to_yuv_p16.rs:926-935
  ⟨w!"rgba10_to_i210", .call (.rgb16ToYuv16 .rgba .yuv422 .little .lsb 10 15)⟩,
  -- /repo/src/rgb16_to_yuv_p16.rs:970-979
  ⟨w!"rgba10_to_i410", .call (.rgb16ToYuv16 .rgba .yuv444 .little .lsb 10 15)⟩,
  -- /repo/src/rgb16_to_yuv_p16.rs:1014-1023
  ⟨w!"rgba12_to_i012", .call (.rgb16ToYuv16 .rgba .yuv420 .little .lsb 12 15)⟩,
  -- /repo/src/rgb16_to_yuv_p16.rs:1058-1067
  ⟨w!"rgba12_to_i212", .call (.rgb16ToYuv16 .rgba .yuv422 .little .lsb 12 15)⟩,
  -- /repo/src/rgb16_to_yuv_p16.rs:1102-1111
  ⟨w!"rgba12_to_i412", .call (.rgb16ToYuv16 .rgba .yuv444 .little .lsb 12 15)⟩,
  -- /repo/src/rgb16_to_yuv_p16.rs:1146-1155
  ⟨w!"rgba14_to_i014", .call (.rgb16ToYuv16 .rgba .yuv420 .little .lsb 14 15)⟩,
  -- /repo/src/rgb16_to_yuv_p16.rs:1190-1199
  ⟨w!"rgba14_to_i214", .call (.rgb16ToYuv16 .rgba .yuv422 .little .lsb 14 15)⟩,
  -- /repo/src/rgb16_to_yuv_p16.rs:1233-1242
  ⟨w!"rgba14_to_i414", .call (.rgb16ToYuv16 .rgba .yuv444 .little .lsb 14 15)⟩,
  -- /repo/src/rgb16_to_yuv_p16.rs:1277-1286
  ⟨w!"rgba16_to_i016", .call (.rgb16ToYuv16 .rgba .yuv420 .little .lsb 16 15)⟩,
  -- /repo/src/rgb16_to_yuv_p16.rs:1321-1330
  ⟨w!"rgba16_to_i216", .call (.rgb16ToYuv16 .rgba .yuv422 .little .lsb 16 15)⟩,
  -- /repo/src/rgb16_to_yuv_p16.rs:1364-1373
  ⟨w!"rgba16_to_i416", .call (.rgb16ToYuv16 .rgba .yuv444 .little .lsb 16 15)⟩,
  -- /repo/src/rgb16_to_yuv_p16.rs:915-924
  ⟨w!"rgb10_to_i010_be", .call (.rgb16ToYuv16 .rgb .yuv420 .big .lsb 10 15)⟩,
  -- /repo/src/rgb16_to_yuv_p16.rs:959-968
  ⟨w!"rgb10_to_i210_be", .call (.rgb16ToYuv16 .rgb .yuv422 .big .lsb 10 15)⟩,
  -- /repo/src/rgb16_to_yuv_p16.rs:1003-1012
  ⟨w!"rgb10_to_i410_be", .call (.rgb16ToYuv16 .rgb .yuv444 .big .lsb 10 15)⟩,
  -- /repo/src/rgb16_to_yuv_p16.rs:1047-1056
  ⟨w!"rgb12_to_i012_be", .call (.rgb16ToYuv16 .rgb .yuv420 .big .lsb 12 15)⟩,
  -- /repo/src/rgb16_to_yuv_p16.rs:1091-1100
  ⟨w!"rgb12_to_i212_be", .call (.rgb16ToYuv16 .rgb .yuv422 .big .lsb 12 15)⟩,
  -- /repo/src/rgb16_to_yuv_p16.rs:1135-1144
  ⟨w!"rgb12_to_i412_be", .call (.rgb16ToYuv16 .rgb .yuv444 .big .lsb 12 15)⟩,
  -- /repo/src/rgb16_to_yuv_p16.rs:1179-1188
  ⟨w!"rgb14_to_i014_be", .call (.rgb16ToYuv16 .rgb .yuv420 .big .lsb 14 15)⟩,
  -- /repo/src/rgb16_to_yuv_p16.rs:1222-1231
  ⟨w!"rgb14_to_i214_be", .call (.rgb16ToYuv16 .rgb .yuv422 .big .lsb 14 15)⟩,
  -- /repo/src/rgb16_to_yuv_p16.rs:1266-1275
  ⟨w!"rgb14_to_i414_be", .call (.rgb16ToYuv16 .rgb .yuv444 .big .lsb 14 15)⟩,
  -- /repo/src/rgb16_to_yuv_p16.rs:1310-1319
  ⟨w!"rgb16_to_i016_be", .call (.rgb16ToYuv16 .rgb .yuv420 .big .lsb 16 15)⟩,
  -- /repo/src/rgb16_to_yuv_p16.rs:1353-1362
  ⟨w!"rgb16_to_i216_be", .call (.rgb16ToYuv16 .rgb .yuv422 .big .lsb 16 15)⟩,
  -- /repo/src/rgb16_to_yuv_p16.rs:1397-1406
  ⟨w!"rgb16_to_i416_be", .call (.rgb16ToYuv16 .rgb .yuv444 .big .lsb 16 15)⟩,
  -- /repo/src/rgb16_to_yuv_p16.rs:893-902
  ⟨w!"rgba10_to_i010_be", .call (.rgb16ToYuv16 .rgba .yuv420 .big .lsb 10 15)⟩,
  -- /repo/src/rgb16_to_yuv_p16.rs:937-946
  ⟨w!"rgba10_to_i210_be", .call (.rgb16ToYuv16 .rgba .yuv422 .big .lsb 10 15)⟩,
  -- /repo/src/rgb16_to_yuv_p16.rs:981-990
  ⟨w!"rgba10_to_i410_be", .call (.rgb16ToYuv16 .rgba .yuv444 .big .lsb 10 15)⟩,
  -- /repo/src/rgb16_to_yuv_p16.rs:1025-1034
  ⟨w!"rgba12_to_i012_be", .call (.rgb16ToYuv16 .rgba .yuv420 .big .lsb 12 15)⟩,
  -- /repo/src/rgb16_to_yuv_p16.rs:1069-1078
  ⟨w!"rgba12_to_i212_be", .call (.rgb16ToYuv16 .rgba .yuv420 .big .lsb 12 15)⟩,
  -- /repo/src/rgb16_to_yuv_p16.rs:1113-1122
  ⟨w!"rgba12_to_i412_be", .call (.rgb16ToYuv16 .rgba .yuv444 .big .lsb 12 15)⟩,
  -- /repo/src/rgb16_to_yuv_p16.rs:1157-1166
  ⟨w!"rgba14_to_i014_be", .call (.rgb16ToYuv16 .rgba .yuv420 .big .lsb 14 15)⟩,
  -- /repo/src/rgb16_to_yuv_p16.rs:1201-1210
  ⟨w!"rgba14_to_i214_be", .call (.rgb16ToYuv16 .rgba .yuv422 .big .lsb 14 15)⟩,
  -- /repo/src/rgb16_to_yuv_p16.rs:1244-1253
  ⟨w!"rgba14_to_i414_be", .call (.rgb16ToYuv16 .rgba .yuv444 .big .lsb 14 15)⟩,
  -- /repo/src/rgb16_to_yuv_p16.rs:1288-1297
  ⟨w!"rgba16_to_i016_be", .call (.rgb16ToYuv16 .rgba .yuv420 .big .lsb 16 15)⟩,
  -- /repo/src/rgb16_to_yuv_p16.rs:1332-1341
  ⟨w!"rgba16_to_i216_be", .call (.rgb16ToYuv16 .rgba .yuv422 .big .lsb 16 15)⟩,
  -- /repo/src/rgb16_to_yuv_p16.rs:1375-1384
  ⟨w!"rgba16_to_i416_be", .call (.rgb16ToYuv16 .rgba .yuv444 .big .lsb 16 15)⟩]

/-- The public functions of /repo/src/yuv_to_rgba_alpha.rs. -/
def api_yuv_to_rgba_alpha : List ApiRow := [
  -- /repo/src/yuv_to_rgba_alpha.rs:530-549
  ⟨w!"yuv420_alpha_to_bgra", .call (.yuvAlphaToRgb .bgra .yuv420)⟩,
  -- /repo/src/yuv_to_rgba_alpha.rs:490-509
  ⟨w!"yuv420_alpha_to_rgba", .call (.yuvAlphaToRgb .rgba .yuv420)⟩,
  -- /repo/src/yuv_to_rgba_alpha.rs:610-629
  ⟨w!"yuv422_alpha_to_bgra", .call (.yuvAlphaToRgb .bgra .yuv422)⟩,
  -- /repo/src/yuv_to_rgba_alpha.rs:570-589
  ⟨w!"yuv422_alpha_to_rgba", .call (.yuvAlphaToRgb .rgba .yuv422)⟩,
  -- /repo/src/yuv_to_rgba_alpha.rs:690-709
  ⟨w!"yuv444_alpha_to_bgra", .call (.yuvAlphaToRgb .bgra .yuv444)⟩,
  -- /repo/src/yuv_to_rgba_alpha.rs:650-669
  ⟨w!"yuv444_alpha_to_rgba", .call (.yuvAlphaToRgb .rgba .yuv444)⟩]

/-- The public functions of /repo/src/rgb_to_y.rs. -/
def api_rgb_to_y : List ApiRow := [
  -- /repo/src/rgb_to_y.rs:307-315
  ⟨w!"bgr_to_yuv400", .call (.rgbToY .bgr)⟩,
  -- /repo/src/rgb_to_y.rs:279-287
  ⟨w!"bgra_to_yuv400", .call (.rgbToY .bgra)⟩,
  -- /repo/src/rgb_to_y.rs:223-231
  ⟨w!"rgb_to_yuv400", .call (.rgbToY .rgb)⟩,
  -- /repo/src/rgb_to_y.rs:251-259
  ⟨w!"rgba_to_yuv400", .call (.rgbToY .rgba)⟩]

/-- The public functions of /repo/src/y_to_rgb.rs. -/
def api_y_to_rgb : List ApiRow := [
  -- /repo/src/y_to_rgb.rs:322-330
  ⟨w!"yuv400_to_bgr", .call (.yToRgb .bgr)⟩,
  -- /repo/src/y_to_rgb.rs:376-384
  ⟨w!"yuv400_to_bgra", .call (.yToRgb .bgra)⟩,
  -- /repo/src/y_to_rgb.rs:295-303
  ⟨w!"yuv400_to_rgb", .call (.yToRgb .rgb)⟩,
  -- /repo/src/y_to_rgb.rs:349-357
  ⟨w!"yuv400_to_rgba", .call (.yToRgb .rgba)⟩]

/-- The public functions of /repo/src/yuv_p10_rgba.rs. -/
def api_yuv_p10_rgba : List ApiRow := [
  -- /repo/src/yuv_p10_rgba.rs:586-595
  ⟨w!"i010_be_to_bgr", .call (.yuv16ToRgb .bgr .yuv420 .big .lsb 10)⟩,
  -- /repo/src/yuv_p10_rgba.rs:542-551
  ⟨w!"i010_be_to_bgra", .call (.yuv16ToRgb .rgba .yuv420 .big .lsb 10)⟩,
  -- /repo/src/yuv_p10_rgba.rs:564-573
  ⟨w!"i010_be_to_rgb", .call (.yuv16ToRgb .rgb .yuv420 .big .lsb 10)⟩,
  -- /repo/src/yuv_p10_rgba.rs:520-529
  ⟨w!"i010_be_to_rgba", .call (.yuv16ToRgb .rgba .yuv420 .big .lsb 10)⟩,
  -- /repo/src/yuv_p10_rgba.rs:762-771
  ⟨w!"i012_be_to_bgr", .call (.yuv16ToRgb .bgr .yuv420 .big .lsb 12)⟩,
  -- /repo/src/yuv_p10_rgba.rs:718-727
  ⟨w!"i012_be_to_bgra", .call (.yuv16ToRgb .rgba .yuv420 .big .lsb 12)⟩,
  -- /repo/src/yuv_p10_rgba.rs:740-749
  ⟨w!"i012_be_to_rgb", .call (.yuv16ToRgb .rgb .yuv420 .big .lsb 12)⟩,
  -- /repo/src/yuv_p10_rgba.rs:696-705
  ⟨w!"i012_be_to_rgba", .call (.yuv16ToRgb .rgba .yuv420 .big .lsb 12)⟩,
  -- /repo/src/yuv_p10_rgba.rs:674-683
  ⟨w!"i210_be_to_bgr", .call (.yuv16ToRgb .bgr .yuv422 .big .lsb 10)⟩,
  -- /repo/src/yuv_p10_rgba.rs:630-639
  ⟨w!"i210_be_to_bgra", .call (.yuv16ToRgb .rgba .yuv422 .big .lsb 10)⟩,
  -- /repo/src/yuv_p10_rgba.rs:652-661
  ⟨w!"i210_be_to_rgb", .call (.yuv16ToRgb .rgb .yuv422 .big .lsb 10)⟩,
  -- /repo/src/yuv_p10_rgba.rs:608-617
  ⟨w!"i210_be_to_rgba", .call (.yuv16ToRgb .rgba .yuv422 .big .lsb 10)⟩,
  -- /repo/src/yuv_p10_rgba.rs:850-859
  ⟨w!"i212_be_to_bgr", .call (.yuv16ToRgb .bgr .yuv422 .big .lsb 12)⟩,
  -- /repo/src/yuv_p10_rgba.rs:806-815
  ⟨w!"i212_be_to_bgra", .call (.yuv16ToRgb .rgba .yuv422 .big .lsb 12)⟩,
  -- /repo/src/yuv_p10_rgba.rs:828-837
  ⟨w!"i212_be_to_rgb", .call (.yuv16ToRgb .rgb .yuv422 .big .lsb 12)⟩,
  -- /repo/src/yuv_p10_rgba.rs:784-793
  ⟨w!"i212_be_to_rgba", .call (.yuv16ToRgb .rgba .yuv422 .big .lsb 12)⟩,
  -- /repo/src/yuv_p10_rgba.rs:872-881
  ⟨w!"i410_be_to_rgba", .call (.yuv16ToRgb .rgba .yuv444 .big .lsb 10)⟩,
  -- /repo/src/yuv_p10_rgba.rs:575-584
  ⟨w!"i010_to_bgr", .call (.yuv16ToRgb .bgr .yuv420 .little .lsb 10)⟩,
  -- /repo/src/yuv_p10_rgba.rs:531-540
  ⟨w!"i010_to_bgra", .call (.yuv16ToRgb .bgra .yuv420 .little .lsb 10)⟩,
  -- /repo/src/yuv_p10_rgba.rs:553-562
  ⟨w!"i010_to_rgb", .call (.yuv16ToRgb .rgb .yuv420 .little .lsb 10)⟩,
  -- /repo/src/yuv_p10_rgba.rs:509-518
  ⟨w!"i010_to_rgba", .call (.yuv16ToRgb .rgba .yuv420 .little .lsb 10)⟩,
  -- /repo/src/yuv_p10_rgba.rs:751-760
  ⟨w!"i012_to_bgr", .call (.yuv16ToRgb .bgr .yuv420 .little .lsb 12)⟩,
  -- /repo/src/yuv_p10_rgba.rs:707-716
  ⟨w!"i012_to_bgra", .call (.yuv16ToRgb .bgra .yuv420 .little .lsb 12)⟩,
  -- /repo/src/yuv_p10_rgba.rs:729-738
  ⟨w!"i012_to_rgb", .call (.yuv16ToRgb .rgb .yuv420 .little .lsb 12)⟩,
  -- /repo/src/yuv_p10_rgba.rs:685-694
  ⟨w!"i012_to_rgba", .call (.yuv16ToRgb .rgba .yuv420 .little .lsb 12)⟩,
  -- /repo/src/yuv_p10_rgba.rs:663-672
  ⟨w!"i210_to_bgr", .call (.yuv16ToRgb .bgr .yuv422 .little .lsb 10)⟩,
  -- /repo/src/yuv_p10_rgba.rs:619-628
  ⟨w!"i210_to_bgra", .call (.yuv16ToRgb .bgra .yuv422 .little .lsb 10)⟩,
  -- /repo/src/yuv_p10_rgba.rs:641-650
  ⟨w!"i210_to_rgb", .call (.yuv16ToRgb .rgb .yuv422 .little .lsb 10)⟩,
  -- /repo/src/yuv_p10_rgba.rs:597-606
  ⟨w!"i210_to_rgba", .call (.yuv16ToRgb .rgba .yuv422 .little .lsb 10)⟩,
  -- /repo/src/yuv_p10_rgba.rs:839-848
  ⟨w!"i212_to_bgr", .call (.yuv16ToRgb .bgr .yuv422 .little .lsb 12)⟩,
  -- /repo/src/yuv_p10_rgba.rs:795-804
  ⟨w!"i212_to_bgra", .call (.yuv16ToRgb .bgra .yuv422 .little .lsb 12)⟩,
  -- /repo/src/yuv_p10_rgba.rs:817-826
  ⟨w!"i212_to_rgb", .call (.yuv16ToRgb .rgb .yuv422 .little .lsb 12)⟩,
  -- /repo/src/yuv_p10_rgba.rs:773-782
  ⟨w!"i212_to_rgba", .call (.yuv16ToRgb .rgba .yuv422 .little .lsb 12)⟩,
  -- /repo/src/yuv_p10_rgba.rs:861-870
  ⟨w!"i410_to_rgba", .call (.yuv16ToRgb .rgba .yuv444 .little .lsb 10)⟩]

/-- The public functions of /repo/src/rgb_to_ycgco.rs. -/
def api_rgb_to_ycgco : List ApiRow := [
  -- /repo/src/rgb_to_ycgco.rs:542-551
  ⟨w!"bgr_to_ycgco420", .call (.rgbToYcgco .bgr .yuv420)⟩,
  -- /repo/src/rgb_to_ycgco.rs:424-433
  ⟨w!"bgr_to_ycgco422", .call (.rgbToYcgco .bgr .yuv422)⟩,
  -- /repo/src/rgb_to_ycgco.rs:660-669
  ⟨w!"bgr_to_ycgco444", .call (.rgbToYcgco .bgr .yuv444)⟩,
  -- /repo/src/rgb_to_ycgco.rs:601-613
  ⟨w!"bgra_to_ycgco420", .call (.rgbToYcgco .bgra .yuv420)⟩,
  -- /repo/src/rgb_to_ycgco.rs:483-495
  ⟨w!"bgra_to_ycgco422", .call (.rgbToYcgco .bgra .yuv422)⟩,
  -- /repo/src/rgb_to_ycgco.rs:719-731
  ⟨w!"bgra_to_ycgco444", .call (.rgbToYcgco .bgra .yuv444)⟩,
  -- /repo/src/rgb_to_ycgco.rs:514-523
  ⟨w!"rgb_to_ycgco420", .call (.rgbToYcgco .rgb .yuv420)⟩,
  -- /repo/src/rgb_to_ycgco.rs:397-406
  ⟨w!"rgb_to_ycgco422", .call (.rgbToYcgco .rgb .yuv422)⟩,
  -- /repo/src/rgb_to_ycgco.rs:632-641
  ⟨w!"rgb_to_ycgco444", .call (.rgbToYcgco .rgb .yuv444)⟩,
  -- /repo/src/rgb_to_ycgco.rs:570-582
  ⟨w!"rgba_to_ycgco420", .call (.rgbToYcgco .rgba .yuv420)⟩,
  -- /repo/src/rgb_to_ycgco.rs:452-464
  ⟨w!"rgba_to_ycgco422", .call (.rgbToYcgco .rgba .yuv422)⟩,
  -- /repo/src/rgb_to_ycgco.rs:688-700
  ⟨w!"rgba_to_ycgco444", .call (.rgbToYcgco .rgba .yuv444)⟩]

/-- The public functions of /repo/src/ycgco_to_rgb.rs. -/
def api_ycgco_to_rgb : List ApiRow := [
  -- /repo/src/ycgco_to_rgb.rs:713-722
  ⟨w!"ycgco420_to_bgr", .call (.ycgcoToRgb .u8 .bgr .yuv420 8)⟩,
  -- /repo/src/ycgco_to_rgb.rs:733-742
  ⟨w!"ycgco420_to_bgra", .call (.ycgcoToRgb .u8 .bgra .yuv420 8)⟩,
  -- /repo/src/ycgco_to_rgb.rs:703-712
  ⟨w!"ycgco420_to_rgb", .call (.ycgcoToRgb .u8 .rgb .yuv420 8)⟩,
  -- /repo/src/ycgco_to_rgb.rs:723-732
  ⟨w!"ycgco420_to_rgba", .call (.ycgcoToRgb .u8 .rgba .yuv420 8)⟩,
  -- /repo/src/ycgco_to_rgb.rs:754-763
  ⟨w!"ycgco422_to_bgr", .call (.ycgcoToRgb .u8 .bgr .yuv422 8)⟩,
  -- /repo/src/ycgco_to_rgb.rs:774-783
  ⟨w!"ycgco422_to_bgra", .call (.ycgcoToRgb .u8 .bgra .yuv422 8)⟩,
  -- /repo/src/ycgco_to_rgb.rs:744-753
  ⟨w!"ycgco422_to_rgb", .call (.ycgcoToRgb .u8 .rgb .yuv422 8)⟩,
  -- /repo/src/ycgco_to_rgb.rs:764-773
  ⟨w!"ycgco422_to_rgba", .call (.ycgcoToRgb .u8 .rgba .yuv422 8)⟩,
  -- /repo/src/ycgco_to_rgb.rs:795-804
  ⟨w!"ycgco444_to_bgr", .call (.ycgcoToRgb .u8 .bgr .yuv444 8)⟩,
  -- /repo/src/ycgco_to_rgb.rs:815-824
  ⟨w!"ycgco444_to_bgra", .call (.ycgcoToRgb .u8 .bgra .yuv444 8)⟩,
  -- /repo/src/ycgco_to_rgb.rs:785-794
  ⟨w!"ycgco444_to_rgb", .call (.ycgcoToRgb .u8 .rgb .yuv444 8)⟩,
  -- /repo/src/ycgco_to_rgb.rs:805-814
  ⟨w!"ycgco444_to_rgba", .call (.ycgcoToRgb .u8 .rgba .yuv444 8)⟩,
  -- /repo/src/ycgco_to_rgb.rs:826-835
  ⟨w!"icgc010_to_rgb10", .call (.ycgcoToRgb .u16 .rgb .yuv420 10)⟩,
  -- /repo/src/ycgco_to_rgb.rs:836-845
  ⟨w!"icgc010_to_rgba10", .call (.ycgcoToRgb .u16 .rgba .yuv420 10)⟩,
  -- /repo/src/ycgco_to_rgb.rs:889-898
  ⟨w!"icgc012_to_rgb12", .call (.ycgcoToRgb .u16 .rgb .yuv420 12)⟩,
  -- /repo/src/ycgco_to_rgb.rs:899-908
  ⟨w!"icgc012_to_rgba12", .call (.ycgcoToRgb .u16 .rgba .yuv420 12)⟩,
  -- /repo/src/ycgco_to_rgb.rs:846-855
  ⟨w!"icgc210_to_rgb10", .call (.ycgcoToRgb .u16 .rgb .yuv422 10)⟩,
  -- /repo/src/ycgco_to_rgb.rs:856-865
  ⟨w!"icgc210_to_rgba10", .call (.ycgcoToRgb .u16 .rgba .yuv422 10)⟩,
  -- /repo/src/ycgco_to_rgb.rs:909-918
  ⟨w!"icgc212_to_rgb12", .call (.ycgcoToRgb .u16 .rgb .yuv422 12)⟩,
  -- /repo/src/ycgco_to_rgb.rs:919-928
  ⟨w!"icgc212_to_rgba12", .call (.ycgcoToRgb .u16 .rgba .yuv422 12)⟩,
  -- /repo/src/ycgco_to_rgb.rs:866-875
  ⟨w!"icgc410_to_rgb10", .call (.ycgcoToRgb .u16 .rgb .yuv444 10)⟩,
  -- /repo/src/ycgco_to_rgb.rs:876-885
  ⟨w!"icgc410_to_rgba10", .call (.ycgcoToRgb .u16 .rgba .yuv444 10)⟩,
  -- /repo/src/ycgco_to_rgb.rs:929-938
  ⟨w!"icgc412_to_rgb12", .call (.ycgcoToRgb .u16 .rgb .yuv444 12)⟩,
  -- /repo/src/ycgco_to_rgb.rs:939-948
  ⟨w!"icgc412_to_rgba12", .call (.ycgcoToRgb .u16 .rgba .yuv444 12)⟩]

/-- The public functions of /repo/src/ycgco_to_rgb_alpha.rs. -/
def api_ycgco_to_rgb_alpha : List ApiRow := [
  -- /repo/src/ycgco_to_rgb_alpha.rs:461-470
  ⟨w!"ycgco420_alpha_to_bgra", .call (.ycgcoAlphaToRgb .u8 .bgra .yuv420 8)⟩,
  -- /repo/src/ycgco_to_rgb_alpha.rs:451-460
  ⟨w!"ycgco420_alpha_to_rgba", .call (.ycgcoAlphaToRgb .u8 .rgba .yuv420 8)⟩,
  -- /repo/src/ycgco_to_rgb_alpha.rs:482-491
  ⟨w!"ycgco422_alpha_to_bgra", .call (.ycgcoAlphaToRgb .u8 .bgra .yuv422 8)⟩,
  -- /repo/src/ycgco_to_rgb_alpha.rs:472-481
  ⟨w!"ycgco422_alpha_to_rgba", .call (.ycgcoAlphaToRgb .u8 .rgba .yuv422 8)⟩,
  -- /repo/src/ycgco_to_rgb_alpha.rs:503-512
  ⟨w!"ycgco444_alpha_to_bgra", .call (.ycgcoAlphaToRgb .u8 .bgra .yuv444 8)⟩,
  -- /repo/src/ycgco_to_rgb_alpha.rs:493-502
  ⟨w!"ycgco444_alpha_to_rgba", .call (.ycgcoAlphaToRgb .u8 .rgba .yuv444 8)⟩,
  -- /repo/src/ycgco_to_rgb_alpha.rs:514-523
  ⟨w!"icgc010_alpha_to_rgba10", .call (.ycgcoAlphaToRgb .u16 .rgba .yuv420 10)⟩,
  -- /repo/src/ycgco_to_rgb_alpha.rs:546-555
  ⟨w!"icgc012_alpha_to_rgba12", .call (.ycgcoAlphaToRgb .u16 .rgba .yuv420 12)⟩,
  -- /repo/src/ycgco_to_rgb_alpha.rs:524-533
  ⟨w!"icgc210_alpha_to_rgba10", .call (.ycgcoAlphaToRgb .u16 .rgba .yuv422 10)⟩,
  -- /repo/src/ycgco_to_rgb_alpha.rs:556-565
  ⟨w!"icgc212_alpha_to_rgba12", .call (.ycgcoAlphaToRgb .u16 .rgba .yuv422 12)⟩,
  -- /repo/src/ycgco_to_rgb_alpha.rs:534-543
  ⟨w!"icgc410_alpha_to_rgba10", .call (.ycgcoAlphaToRgb .u16 .rgba .yuv444 10)⟩,
  -- /repo/src/ycgco_to_rgb_alpha.rs:566-575
  ⟨w!"icgc412_alpha_to_rgba12", .call (.ycgcoAlphaToRgb .u16 .rgba .yuv444 12)⟩]

/-- The public functions of /repo/src/yuv_to_yuy2.rs. -/
def api_yuv_to_yuy2 : List ApiRow := [
  -- /repo/src/yuv_to_yuy2.rs:823-831
  ⟨w!"yuv420_to_uyvy422", .call (.yuvToYuy2 .u8 .yuv420 .uyvy)⟩,
  -- /repo/src/yuv_to_yuy2.rs:742-750
  ⟨w!"yuv420_to_vyuy422", .call (.yuvToYuy2 .u8 .yuv420 .vyuy)⟩,
  -- /repo/src/yuv_to_yuy2.rs:580-588
  ⟨w!"yuv420_to_yuyv422", .call (.yuvToYuy2 .u8 .yuv420 .yuyv)⟩,
  -- /repo/src/yuv_to_yuy2.rs:661-669
  ⟨w!"yuv420_to_yvyu422", .call (.yuvToYuy2 .u8 .yuv420 .yvyu)⟩,
  -- /repo/src/yuv_to_yuy2.rs:796-804
  ⟨w!"yuv422_to_uyvy422", .call (.yuvToYuy2 .u8 .yuv422 .uyvy)⟩,
  -- /repo/src/yuv_to_yuy2.rs:715-723
  ⟨w!"yuv422_to_vyuy422", .call (.yuvToYuy2 .u8 .yuv422 .vyuy)⟩,
  -- /repo/src/yuv_to_yuy2.rs:553-561
  ⟨w!"yuv422_to_yuyv422", .call (.yuvToYuy2 .u8 .yuv422 .yuyv)⟩,
  -- /repo/src/yuv_to_yuy2.rs:634-642
  ⟨w!"yuv422_to_yvyu422", .call (.yuvToYuy2 .u8 .yuv422 .yvyu)⟩,
  -- /repo/src/yuv_to_yuy2.rs:769-777
  ⟨w!"yuv444_to_uyvy422", .call (.yuvToYuy2 .u8 .yuv444 .uyvy)⟩,
  -- /repo/src/yuv_to_yuy2.rs:688-696
  ⟨w!"yuv444_to_vyuy422", .call (.yuvToYuy2 .u8 .yuv444 .vyuy)⟩,
  -- /repo/src/yuv_to_yuy2.rs:526-534
  ⟨w!"yuv444_to_yuyv422", .call (.yuvToYuy2 .u8 .yuv444 .yuyv)⟩,
  -- /repo/src/yuv_to_yuy2.rs:607-615
  ⟨w!"yuv444_to_yvyu422", .call (.yuvToYuy2 .u8 .yuv444 .yvyu)⟩]

/-- The public functions of /repo/src/yuy2_to_yuv.rs. -/
def api_yuy2_to_yuv : List ApiRow := [
  -- /repo/src/yuy2_to_yuv.rs:589-597
  ⟨w!"uyvy422_to_yuv420", .call (.yuy2ToYuv .yuv420 .uyvy)⟩,
  -- /repo/src/yuy2_to_yuv.rs:615-623
  ⟨w!"uyvy422_to_yuv422", .call (.yuy2ToYuv .yuv422 .uyvy)⟩,
  -- /repo/src/yuy2_to_yuv.rs:564-572
  ⟨w!"uyvy422_to_yuv444", .call (.yuy2ToYuv .yuv444 .uyvy)⟩,
  -- /repo/src/yuy2_to_yuv.rs:514-522
  ⟨w!"vyuy422_to_yuv420", .call (.yuy2ToYuv .yuv420 .vyuy)⟩,
  -- /repo/src/yuy2_to_yuv.rs:539-547
  ⟨w!"vyuy422_to_yuv422", .call (.yuy2ToYuv .yuv422 .vyuy)⟩,
  -- /repo/src/yuy2_to_yuv.rs:489-497
  ⟨w!"vyuy422_to_yuv444", .call (.yuy2ToYuv .yuv444 .vyuy)⟩,
  -- /repo/src/yuy2_to_yuv.rs:364-372
  ⟨w!"yuyv422_to_yuv420", .call (.yuy2ToYuv .yuv420 .yuyv)⟩,
  -- /repo/src/yuy2_to_yuv.rs:389-397
  ⟨w!"yuyv422_to_yuv422", .call (.yuy2ToYuv .yuv422 .yuyv)⟩,
  -- /repo/src/yuy2_to_yuv.rs:339-347
  ⟨w!"yuyv422_to_yuv444", .call (.yuy2ToYuv .yuv444 .yuyv)⟩,
  -- /repo/src/yuy2_to_yuv.rs:439-447
  ⟨w!"yvyu422_to_yuv420", .call (.yuy2ToYuv .yuv420 .yvyu)⟩,
  -- /repo/src/yuy2_to_yuv.rs:464-472
  ⟨w!"yvyu422_to_yuv422", .call (.yuy2ToYuv .yuv422 .yvyu)⟩,
  -- /repo/src/yuy2_to_yuv.rs:414-422
  ⟨w!"yvyu422_to_yuv444", .call (.yuy2ToYuv .yuv444 .yvyu)⟩]

/-- The public functions of /repo/src/to_identity.rs. -/
def api_to_identity : List ApiRow := [
  -- /repo/src/to_identity.rs:398-408
  ⟨w!"bgr_to_gbr", .call (.rgbToGbr .u8 .bgr 8)⟩,
  -- /repo/src/to_identity.rs:409-419
  ⟨w!"bgra_to_gbr", .call (.rgbToGbr .u8 .bgra 8)⟩,
  -- /repo/src/to_identity.rs:431-441
  ⟨w!"rgb10_to_gb10", .call (.rgbToGbr .u16 .rgb 10)⟩,
  -- /repo/src/to_identity.rs:453-463
  ⟨w!"rgb12_to_gb12", .call (.rgbToGbr .u16 .rgb 12)⟩,
  -- /repo/src/to_identity.rs:475-485
  ⟨w!"rgb14_to_gb14", .call (.rgbToGbr .u16 .rgb 14)⟩,
  -- /repo/src/to_identity.rs:497-507
  ⟨w!"rgb16_to_gb16", .call (.rgbToGbr .u16 .rgb 16)⟩,
  -- /repo/src/to_identity.rs:387-397
  ⟨w!"rgb_to_gbr", .call (.rgbToGbr .u8 .rgb 8)⟩,
  -- /repo/src/to_identity.rs:442-452
  ⟨w!"rgba10_to_gb10", .call (.rgbToGbr .u16 .rgba 10)⟩,
  -- /repo/src/to_identity.rs:464-474
  ⟨w!"rgba12_to_gb12", .call (.rgbToGbr .u16 .rgba 12)⟩,
  -- /repo/src/to_identity.rs:486-496
  ⟨w!"rgba14_to_gb14", .call (.rgbToGbr .u16 .rgba 14)⟩,
  -- /repo/src/to_identity.rs:508-518
  ⟨w!"rgba16_to_gb16", .call (.rgbToGbr .u16 .rgba 16)⟩,
  -- /repo/src/to_identity.rs:420-430
  ⟨w!"rgba_to_gbr", .call (.rgbToGbr .u8 .rgba 8)⟩]

/-- The public functions of /repo/src/rgb_to_nv_p16.rs. -/
def api_rgb_to_nv_p16 : List ApiRow := [
  -- /repo/src/rgb_to_nv_p16.rs:491-499
  ⟨w!"rgb10_to_p010", .call (.rgb16ToNv16 .rgb .uv .yuv420 .little .msb 10)⟩,
  -- /repo/src/rgb_to_nv_p16.rs:509-517
  ⟨w!"rgb10_to_p210", .call (.rgb16ToNv16 .rgb .uv .yuv422 .little .msb 10)⟩,
  -- /repo/src/rgb_to_nv_p16.rs:527-535
  ⟨w!"rgb10_to_p410", .call (.rgb16ToNv16 .rgb .uv .yuv444 .little .msb 10)⟩,
  -- /repo/src/rgb_to_nv_p16.rs:546-554
  ⟨w!"rgb12_to_p012", .call (.rgb16ToNv16 .rgb .uv .yuv420 .little .msb 12)⟩,
  -- /repo/src/rgb_to_nv_p16.rs:564-572
  ⟨w!"rgb12_to_p212", .call (.rgb16ToNv16 .rgb .uv .yuv422 .little .msb 12)⟩,
  -- /repo/src/rgb_to_nv_p16.rs:582-590
  ⟨w!"rgb12_to_p412", .call (.rgb16ToNv16 .rgb .uv .yuv444 .little .msb 12)⟩,
  -- /repo/src/rgb_to_nv_p16.rs:601-609
  ⟨w!"rgb16_to_p016", .call (.rgb16ToNv16 .rgb .uv .yuv420 .little .msb 16)⟩,
  -- /repo/src/rgb_to_nv_p16.rs:620-628
  ⟨w!"rgb16_to_p216", .call (.rgb16ToNv16 .rgb .uv .yuv420 .little .msb 16)⟩,
  -- /repo/src/rgb_to_nv_p16.rs:482-490
  ⟨w!"rgba10_to_p010", .call (.rgb16ToNv16 .rgba .uv .yuv420 .little .msb 10)⟩,
  -- /repo/src/rgb_to_nv_p16.rs:500-508
  ⟨w!"rgba10_to_p210", .call (.rgb16ToNv16 .rgba .uv .yuv422 .little .msb 10)⟩,
  -- /repo/src/rgb_to_nv_p16.rs:518-526
  ⟨w!"rgba10_to_p410", .call (.rgb16ToNv16 .rgba .uv .yuv444 .little .msb 10)⟩,
  -- /repo/src/rgb_to_nv_p16.rs:537-545
  ⟨w!"rgba12_to_p012", .call (.rgb16ToNv16 .rgba .uv .yuv420 .little .msb 12)⟩,
  -- /repo/src/rgb_to_nv_p16.rs:555-563
  ⟨w!"rgba12_to_p212", .call (.rgb16ToNv16 .rgba .uv .yuv422 .little .msb 12)⟩,
  -- /repo/src/rgb_to_nv_p16.rs:573-581
  ⟨w!"rgba12_to_p412", .call (.rgb16ToNv16 .rgba .uv .yuv444 .little .msb 12)⟩,
  -- /repo/src/rgb_to_nv_p16.rs:592-600
  ⟨w!"rgba16_to_p016", .call (.rgb16ToNv16 .rgba .uv .yuv420 .little .msb 16)⟩,
  -- /repo/src/rgb_to_nv_p16.rs:611-619
  ⟨w!"rgba16_to_p216", .call (.rgb16ToNv16 .rgba .uv .yuv420 .little .msb 16)⟩]

/-- The public functions of /repo/src/yuy2_to_rgb.rs. -/
def api_yuy2_to_rgb : List ApiRow := [
  -- /repo/src/yuy2_to_rgb.rs:458-472
  ⟨w!"uyvy422_to_bgr", .call (.yuy2ToRgb .bgr .uyvy)⟩,
  -- /repo/src/yuy2_to_rgb.rs:492-506
  ⟨w!"uyvy422_to_bgra", .call (.yuy2ToRgb .bgra .uyvy)⟩,
  -- /repo/src/yuy2_to_rgb.rs:390-404
  ⟨w!"uyvy422_to_rgb", .call (.yuy2ToRgb .rgb .uyvy)⟩,
  -- /repo/src/yuy2_to_rgb.rs:424-438
  ⟨w!"uyvy422_to_rgba", .call (.yuy2ToRgb .rgba .uyvy)⟩,
  -- /repo/src/yuy2_to_rgb.rs:730-744
  ⟨w!"vyuy422_to_bgr", .call (.yuy2ToRgb .bgr .vyuy)⟩,
  -- /repo/src/yuy2_to_rgb.rs:764-778
  ⟨w!"vyuy422_to_bgra", .call (.yuy2ToRgb .bgra .vyuy)⟩,
  -- /repo/src/yuy2_to_rgb.rs:662-676
  ⟨w!"vyuy422_to_rgb", .call (.yuy2ToRgb .rgb .vyuy)⟩,
  -- /repo/src/yuy2_to_rgb.rs:696-710
  ⟨w!"vyuy422_to_rgba", .call (.yuy2ToRgb .rgba .vyuy)⟩,
  -- /repo/src/yuy2_to_rgb.rs:322-336
  ⟨w!"yuyv422_to_bgr", .call (.yuy2ToRgb .bgr .yuyv)⟩,
  -- /repo/src/yuy2_to_rgb.rs:356-370
  ⟨w!"yuyv422_to_bgra", .call (.yuy2ToRgb .bgra .yuyv)⟩,
  -- /repo/src/yuy2_to_rgb.rs:254-268
  ⟨w!"yuyv422_to_rgb", .call (.yuy2ToRgb .rgb .yuyv)⟩,
  -- /repo/src/yuy2_to_rgb.rs:288-302
  ⟨w!"yuyv422_to_rgba", .call (.yuy2ToRgb .rgba .yuyv)⟩,
  -- /repo/src/yuy2_to_rgb.rs:594-608
  ⟨w!"yvyu422_to_bgr", .call (.yuy2ToRgb .bgr .yvyu)⟩,
  -- /repo/src/yuy2_to_rgb.rs:628-642
  ⟨w!"yvyu422_to_bgra", .call (.yuy2ToRgb .bgra .yvyu)⟩,
  -- /repo/src/yuy2_to_rgb.rs:526-540
  ⟨w!"yvyu422_to_rgb", .call (.yuy2ToRgb .rgb .yvyu)⟩,
  -- /repo/src/yuy2_to_rgb.rs:560-574
  ⟨w!"yvyu422_to_rgba", .call (.yuy2ToRgb .rgba .yvyu)⟩]

/-- The public functions of /repo/src/yuy2_to_yuv_p16.rs. -/
def api_yuy2_to_yuv_p16 : List ApiRow := [
  -- /repo/src/yuy2_to_yuv_p16.rs:524-532
  ⟨w!"uyvy422_to_yuv420_p16", .call (.yuy2ToYuv16 .yuv420 .uyvy)⟩,
  -- /repo/src/yuy2_to_yuv_p16.rs:549-557
  ⟨w!"uyvy422_to_yuv422_p16", .call (.yuy2ToYuv16 .yuv422 .uyvy)⟩,
  -- /repo/src/yuy2_to_yuv_p16.rs:499-507
  ⟨w!"uyvy422_to_yuv444_p16", .call (.yuy2ToYuv16 .yuv444 .uyvy)⟩,
  -- /repo/src/yuy2_to_yuv_p16.rs:449-457
  ⟨w!"vyuy422_to_yuv420_p16", .call (.yuy2ToYuv16 .yuv420 .vyuy)⟩,
  -- /repo/src/yuy2_to_yuv_p16.rs:474-482
  ⟨w!"vyuy422_to_yuv422_p16", .call (.yuy2ToYuv16 .yuv422 .vyuy)⟩,
  -- /repo/src/yuy2_to_yuv_p16.rs:424-432
  ⟨w!"vyuy422_to_yuv444_p16", .call (.yuy2ToYuv16 .yuv444 .vyuy)⟩,
  -- /repo/src/yuy2_to_yuv_p16.rs:299-307
  ⟨w!"yuyv422_to_yuv420_p16", .call (.yuy2ToYuv16 .yuv420 .yuyv)⟩,
  -- /repo/src/yuy2_to_yuv_p16.rs:324-332
  ⟨w!"yuyv422_to_yuv422_p16", .call (.yuy2ToYuv16 .yuv422 .yuyv)⟩,
  -- /repo/src/yuy2_to_yuv_p16.rs:274-282
  ⟨w!"yuyv422_to_yuv444_p16", .call (.yuy2ToYuv16 .yuv444 .yuyv)⟩,
  -- /repo/src/yuy2_to_yuv_p16.rs:374-382
  ⟨w!"yvyu422_to_yuv420_p16", .call (.yuy2ToYuv16 .yuv420 .yvyu)⟩,
  -- /repo/src/yuy2_to_yuv_p16.rs:399-407
  ⟨w!"yvyu422_to_yuv422_p16", .call (.yuy2ToYuv16 .yuv422 .yvyu)⟩,
  -- /repo/src/yuy2_to_yuv_p16.rs:349-357
  ⟨w!"yvyu422_to_yuv444_p16", .call (.yuy2ToYuv16 .yuv444 .yvyu)⟩]

/-- The public functions of /repo/src/yuv_to_yuy2_p16.rs. -/
def api_yuv_to_yuy2_p16 : List ApiRow := [
  -- /repo/src/yuv_to_yuy2_p16.rs:358-367
  ⟨w!"yuv420_to_uyvy422_p16", .call (.yuvToYuy2 .u16 .yuv420 .uyvy)⟩,
  -- /repo/src/yuv_to_yuy2_p16.rs:274-283
  ⟨w!"yuv420_to_vyuy422_p16", .call (.yuvToYuy2 .u16 .yuv420 .vyuy)⟩,
  -- /repo/src/yuv_to_yuy2_p16.rs:106-115
  ⟨w!"yuv420_to_yuyv422_p16", .call (.yuvToYuy2 .u16 .yuv420 .yuyv)⟩,
  -- /repo/src/yuv_to_yuy2_p16.rs:190-199
  ⟨w!"yuv420_to_yvyu422_p16", .call (.yuvToYuy2 .u16 .yuv420 .yvyu)⟩,
  -- /repo/src/yuv_to_yuy2_p16.rs:330-339
  ⟨w!"yuv422_to_uyvy422_p16", .call (.yuvToYuy2 .u16 .yuv422 .uyvy)⟩,
  -- /repo/src/yuv_to_yuy2_p16.rs:246-255
  ⟨w!"yuv422_to_vyuy422_p16", .call (.yuvToYuy2 .u16 .yuv422 .vyuy)⟩,
  -- /repo/src/yuv_to_yuy2_p16.rs:78-87
  ⟨w!"yuv422_to_yuyv422_p16", .call (.yuvToYuy2 .u16 .yuv422 .yuyv)⟩,
  -- /repo/src/yuv_to_yuy2_p16.rs:162-171
  ⟨w!"yuv422_to_yvyu422_p16", .call (.yuvToYuy2 .u16 .yuv422 .yvyu)⟩,
  -- /repo/src/yuv_to_yuy2_p16.rs:302-311
  ⟨w!"yuv444_to_uyvy422_p16", .call (.yuvToYuy2 .u16 .yuv444 .uyvy)⟩,
  -- /repo/src/yuv_to_yuy2_p16.rs:218-227
  ⟨w!"yuv444_to_vyuy422_p16", .call (.yuvToYuy2 .u16 .yuv444 .vyuy)⟩,
  -- /repo/src/yuv_to_yuy2_p16.rs:50-59
  ⟨w!"yuv444_to_yuyv422_p16", .call (.yuvToYuy2 .u16 .yuv444 .yuyv)⟩,
  -- /repo/src/yuv_to_yuy2_p16.rs:134-143
  ⟨w!"yuv444_to_yvyu422_p16", .call (.yuvToYuy2 .u16 .yuv444 .yvyu)⟩]

/-- The public functions of /repo/src/yuy2_to_rgb_p16.rs. -/
def api_yuy2_to_rgb_p16 : List ApiRow := [
  -- /repo/src/yuy2_to_rgb_p16.rs:270-286
  ⟨w!"uyvy422_to_rgb_p16", .call (.yuy2ToRgb16 .rgb .uyvy)⟩,
  -- /repo/src/yuy2_to_rgb_p16.rs:307-323
  ⟨w!"uyvy422_to_rgba_p16", .call (.yuy2ToRgb16 .rgba .uyvy)⟩,
  -- /repo/src/yuy2_to_rgb_p16.rs:418-434
  ⟨w!"vyuy422_to_rgb_p16", .call (.yuy2ToRgb16 .rgb .vyuy)⟩,
  -- /repo/src/yuy2_to_rgb_p16.rs:455-471
  ⟨w!"vyuy422_to_rgba_p16", .call (.yuy2ToRgb16 .rgba .vyuy)⟩,
  -- /repo/src/yuy2_to_rgb_p16.rs:196-212
  ⟨w!"yuyv422_to_rgb_p16", .call (.yuy2ToRgb16 .rgb .yuyv)⟩,
  -- /repo/src/yuy2_to_rgb_p16.rs:233-249
  ⟨w!"yuyv422_to_rgba_p16", .call (.yuy2ToRgb16 .rgba .yuyv)⟩,
  -- /repo/src/yuy2_to_rgb_p16.rs:344-360
  ⟨w!"yvyu422_to_rgb_p16", .call (.yuy2ToRgb16 .rgb .yvyu)⟩,
  -- /repo/src/yuy2_to_rgb_p16.rs:381-397
  ⟨w!"yvyu422_to_rgba_p16", .call (.yuy2ToRgb16 .rgba .yvyu)⟩]

/-- The public functions of /repo/src/sharpyuv/sharp_rgba_to_yuv.rs. -/
def api_sharp_rgba_to_yuv : List ApiRow := [
  -- /repo/src/sharpyuv/sharp_rgba_to_yuv.rs:789-805
  ⟨w!"bgr_to_sharp_yuv420", .call (.rgbToSharp .bgr .yuv420)⟩,
  -- /repo/src/sharpyuv/sharp_rgba_to_yuv.rs:638-654
  ⟨w!"bgr_to_sharp_yuv422", .call (.rgbToSharp .bgr .yuv422)⟩,
  -- /repo/src/sharpyuv/sharp_rgba_to_yuv.rs:861-877
  ⟨w!"bgra_to_sharp_yuv420", .call (.rgbToSharp .bgra .yuv420)⟩,
  -- /repo/src/sharpyuv/sharp_rgba_to_yuv.rs:710-726
  ⟨w!"bgra_to_sharp_yuv422", .call (.rgbToSharp .bgra .yuv422)⟩,
  -- /repo/src/sharpyuv/sharp_rgba_to_yuv.rs:753-769
  ⟨w!"rgb_to_sharp_yuv420", .call (.rgbToSharp .rgb .yuv420)⟩,
  -- /repo/src/sharpyuv/sharp_rgba_to_yuv.rs:602-618
  ⟨w!"rgb_to_sharp_yuv422", .call (.rgbToSharp .rgb .yuv422)⟩,
  -- /repo/src/sharpyuv/sharp_rgba_to_yuv.rs:825-841
  ⟨w!"rgba_to_sharp_yuv420", .call (.rgbToSharp .rgba .yuv420)⟩,
  -- /repo/src/sharpyuv/sharp_rgba_to_yuv.rs:674-690
  ⟨w!"rgba_to_sharp_yuv422", .call (.rgbToSharp .rgba .yuv422)⟩]

/-- The public functions of /repo/src/from_identity.rs. -/
def api_from_identity : List ApiRow := [
  -- /repo/src/from_identity.rs:571-580
  ⟨w!"gb10_to_rgb10", .call (.gbrToRgb .u16 .rgb 10)⟩,
  -- /repo/src/from_identity.rs:599-611
  ⟨w!"gb10_to_rgba10", .call (.gbrToRgb .u16 .rgba 10)⟩,
  -- /repo/src/from_identity.rs:542-551
  ⟨w!"gb12_to_rgb12", .call (.gbrToRgb .u16 .rgb 12)⟩,
  -- /repo/src/from_identity.rs:630-642
  ⟨w!"gb12_to_rgba12", .call (.gbrToRgb .u16 .rgba 12)⟩,
  -- /repo/src/from_identity.rs:661-670
  ⟨w!"gb14_to_rgb14", .call (.gbrToRgb .u16 .rgb 14)⟩,
  -- /repo/src/from_identity.rs:689-701
  ⟨w!"gb14_to_rgba14", .call (.gbrToRgb .u16 .rgba 14)⟩,
  -- /repo/src/from_identity.rs:720-729
  ⟨w!"gb16_to_rgb16", .call (.gbrToRgb .u16 .rgb 16)⟩,
  -- /repo/src/from_identity.rs:748-760
  ⟨w!"gb16_to_rgba16", .call (.gbrToRgb .u16 .rgba 16)⟩,
  -- /repo/src/from_identity.rs:464-471
  ⟨w!"gbr_to_bgr", .call (.gbrToRgb .u8 .bgr 8)⟩,
  -- /repo/src/from_identity.rs:516-523
  ⟨w!"gbr_to_bgra", .call (.gbrToRgb .u8 .bgra 8)⟩,
  -- /repo/src/from_identity.rs:438-445
  ⟨w!"gbr_to_rgb", .call (.gbrToRgb .u8 .rgb 8)⟩,
  -- /repo/src/from_identity.rs:490-497
  ⟨w!"gbr_to_rgba", .call (.gbrToRgb .u8 .rgba 8)⟩]

/-- The public functions of /repo/src/from_identity_f16.rs. -/
def api_from_identity_f16 : List ApiRow := [
  -- /repo/src/from_identity_f16.rs:526-534
  ⟨w!"gb10_to_rgb_f16", .call (.gbrToHalf .u16 .rgb 10)⟩,
  -- /repo/src/from_identity_f16.rs:489-497
  ⟨w!"gb10_to_rgba_f16", .call (.gbrToHalf .u16 .rgba 10)⟩,
  -- /repo/src/from_identity_f16.rs:535-543
  ⟨w!"gb12_to_rgb_f16", .call (.gbrToHalf .u16 .rgb 12)⟩,
  -- /repo/src/from_identity_f16.rs:498-506
  ⟨w!"gb12_to_rgba_f16", .call (.gbrToHalf .u16 .rgba 12)⟩,
  -- /repo/src/from_identity_f16.rs:544-552
  ⟨w!"gb14_to_rgb_f16", .call (.gbrToHalf .u16 .rgb 14)⟩,
  -- /repo/src/from_identity_f16.rs:507-515
  ⟨w!"gb14_to_rgba_f16", .call (.gbrToHalf .u16 .rgba 14)⟩,
  -- /repo/src/from_identity_f16.rs:553-561
  ⟨w!"gb16_to_rgb_f16", .call (.gbrToHalf .u16 .rgb 16)⟩,
  -- /repo/src/from_identity_f16.rs:516-524
  ⟨w!"gb16_to_rgba_f16", .call (.gbrToHalf .u16 .rgba 16)⟩]

/-- The public functions of /repo/src/from_identity_alpha_f16.rs. -/
def api_from_identity_alpha_f16 : List ApiRow := [
  -- /repo/src/from_identity_alpha_f16.rs:524-532
  ⟨w!"gb10_alpha_to_rgba_f16", .call (.gbrAlphaToHalf .u16 .rgba 10)⟩,
  -- /repo/src/from_identity_alpha_f16.rs:533-541
  ⟨w!"gb12_alpha_to_rgba_f16", .call (.gbrAlphaToHalf .u16 .rgba 12)⟩,
  -- /repo/src/from_identity_alpha_f16.rs:542-550
  ⟨w!"gb14_alpha_to_rgba_f16", .call (.gbrAlphaToHalf .u16 .rgba 14)⟩,
  -- /repo/src/from_identity_alpha_f16.rs:551-559
  ⟨w!"gb16_alpha_to_rgba_f16", .call (.gbrAlphaToHalf .u16 .rgba 16)⟩]

/-- The public functions of /repo/src/from_identity_alpha.rs. -/
def api_from_identity_alpha : List ApiRow := [
  -- /repo/src/from_identity_alpha.rs:274-286
  ⟨w!"gb10_alpha_to_rgba10", .call (.gbrAlphaToRgb .u16 .rgba 10)⟩,
  -- /repo/src/from_identity_alpha.rs:242-254
  ⟨w!"gb12_alpha_to_rgba12", .call (.gbrAlphaToRgb .u16 .rgba 12)⟩,
  -- /repo/src/from_identity_alpha.rs:306-318
  ⟨w!"gb14_alpha_to_rgba14", .call (.gbrAlphaToRgb .u16 .rgba 14)⟩,
  -- /repo/src/from_identity_alpha.rs:338-350
  ⟨w!"gb16_alpha_to_rgba16", .call (.gbrAlphaToRgb .u16 .rgba 16)⟩,
  -- /repo/src/from_identity_alpha.rs:213-222
  ⟨w!"gbr_with_alpha_to_bgra", .call (.gbrAlphaToRgb .u8 .bgra 8)⟩,
  -- /repo/src/from_identity_alpha.rs:185-194
  ⟨w!"gbr_with_alpha_to_rgba", .call (.gbrAlphaToRgb .u8 .rgba 8)⟩]

/-- The public functions of /repo/src/y_p16_to_rgb16.rs. -/
def api_y_p16_to_rgb16 : List ApiRow := [
  -- /repo/src/y_p16_to_rgb16.rs:274-281
  ⟨w!"y010_to_rgb10", .call (.y16ToRgb16 .rgb .little .lsb 10 10)⟩,
  -- /repo/src/y_p16_to_rgb16.rs:266-273
  ⟨w!"y010_to_rgba10", .call (.y16ToRgb16 .rgba .little .lsb 10 10)⟩,
  -- /repo/src/y_p16_to_rgb16.rs:282-289
  ⟨w!"y012_to_rgb12", .call (.y16ToRgb16 .rgb .little .lsb 12 12)⟩,
  -- /repo/src/y_p16_to_rgb16.rs:290-297
  ⟨w!"y012_to_rgba12", .call (.y16ToRgb16 .rgba .little .lsb 12 12)⟩,
  -- /repo/src/y_p16_to_rgb16.rs:298-305
  ⟨w!"y014_to_rgb14", .call (.y16ToRgb16 .rgb .little .lsb 14 14)⟩,
  -- /repo/src/y_p16_to_rgb16.rs:306-313
  ⟨w!"y014_to_rgba14", .call (.y16ToRgb16 .rgba .little .lsb 14 14)⟩,
  -- /repo/src/y_p16_to_rgb16.rs:314-321
  ⟨w!"y016_to_rgb16", .call (.y16ToRgb16 .rgb .little .lsb 16 16)⟩,
  -- /repo/src/y_p16_to_rgb16.rs:322-329
  ⟨w!"y016_to_rgba16", .call (.y16ToRgb16 .rgba .little .lsb 16 16)⟩]

/-- The public functions of /repo/src/y_p16_with_alpha_to_rgb16.rs. -/
def api_y_p16_with_alpha_to_rgb16 : List ApiRow := [
  -- /repo/src/y_p16_with_alpha_to_rgb16.rs:179-186
  ⟨w!"y010_alpha_to_rgba10", .call (.y16AlphaToRgb16 .rgba .little .lsb 10)⟩,
  -- /repo/src/y_p16_with_alpha_to_rgb16.rs:187-194
  ⟨w!"y012_alpha_to_rgba12", .call (.y16AlphaToRgb16 .rgba .little .lsb 12)⟩,
  -- /repo/src/y_p16_with_alpha_to_rgb16.rs:195-202
  ⟨w!"y014_alpha_to_rgba14", .call (.y16AlphaToRgb16 .rgba .little .lsb 14)⟩,
  -- /repo/src/y_p16_with_alpha_to_rgb16.rs:203-210
  ⟨w!"y016_alpha_to_rgba16", .call (.y16AlphaToRgb16 .rgba .little .lsb 16)⟩]

/-- The public functions of /repo/src/y_with_alpha_to_rgb.rs. -/
def api_y_with_alpha_to_rgb : List ApiRow := [
  -- /repo/src/y_with_alpha_to_rgb.rs:314-328
  ⟨w!"yuv400_alpha_to_bgra", .call (.yAlphaToRgb .u8 .bgra 8)⟩,
  -- /repo/src/y_with_alpha_to_rgb.rs:280-294
  ⟨w!"yuv400_alpha_to_rgba", .call (.yAlphaToRgb .u8 .rgba 8)⟩]

/-- The public functions of /repo/src/yuv_p16_rgba_alpha.rs. -/
def api_yuv_p16_rgba_alpha : List ApiRow := [
  -- /repo/src/yuv_p16_rgba_alpha.rs:459-468
  ⟨w!"i010_alpha_to_rgba", .call (.yuv16AlphaToRgb .rgba .yuv420 .little .lsb 10)⟩,
  -- /repo/src/yuv_p16_rgba_alpha.rs:524-533
  ⟨w!"i012_alpha_to_rgba", .call (.yuv16AlphaToRgb .rgba .yuv420 .little .lsb 12)⟩,
  -- /repo/src/yuv_p16_rgba_alpha.rs:481-490
  ⟨w!"i210_alpha_to_rgba", .call (.yuv16AlphaToRgb .rgba .yuv422 .little .lsb 10)⟩,
  -- /repo/src/yuv_p16_rgba_alpha.rs:545-554
  ⟨w!"i212_alpha_to_rgba", .call (.yuv16AlphaToRgb .rgba .yuv422 .little .lsb 12)⟩,
  -- /repo/src/yuv_p16_rgba_alpha.rs:502-511
  ⟨w!"i410_alpha_to_rgba", .call (.yuv16AlphaToRgb .rgba .yuv444 .little .lsb 10)⟩,
  -- /repo/src/yuv_p16_rgba_alpha.rs:566-575
  ⟨w!"i412_alpha_to_rgba", .call (.yuv16AlphaToRgb .rgba .yuv444 .little .lsb 12)⟩,
  -- /repo/src/yuv_p16_rgba_alpha.rs:470-479
  ⟨w!"i010_be_alpha_to_rgba", .call (.yuv16AlphaToRgb .rgba .yuv420 .big .lsb 10)⟩,
  -- /repo/src/yuv_p16_rgba_alpha.rs:535-544
  ⟨w!"i012_be_alpha_to_rgba", .call (.yuv16AlphaToRgb .rgba .yuv420 .big .lsb 12)⟩,
  -- /repo/src/yuv_p16_rgba_alpha.rs:492-501
  ⟨w!"i210_alpha_be_to_rgba", .call (.yuv16AlphaToRgb .rgba .yuv422 .big .lsb 10)⟩,
  -- /repo/src/yuv_p16_rgba_alpha.rs:556-565
  ⟨w!"i212_be_alpha_to_rgba", .call (.yuv16AlphaToRgb .rgba .yuv422 .big .lsb 12)⟩,
  -- /repo/src/yuv_p16_rgba_alpha.rs:513-522
  ⟨w!"i410_be_alpha_to_rgba", .call (.yuv16AlphaToRgb .rgba .yuv444 .big .lsb 10)⟩,
  -- /repo/src/yuv_p16_rgba_alpha.rs:577-586
  ⟨w!"i412_be_alpha_to_rgba", .call (.yuv16AlphaToRgb .rgba .yuv444 .big .lsb 12)⟩]

/-- The public functions of /repo/src/yuv_p16_rgba16_alpha.rs. -/
def api_yuv_p16_rgba16_alpha : List ApiRow := [
  -- /repo/src/yuv_p16_rgba16_alpha.rs:487-496
  ⟨w!"i010_alpha_to_rgba10", .call (.yuv16AlphaToRgb16 .rgba .yuv420 .little .lsb 10)⟩,
  -- /repo/src/yuv_p16_rgba16_alpha.rs:552-561
  ⟨w!"i012_alpha_to_rgba12", .call (.yuv16AlphaToRgb16 .rgba .yuv420 .little .lsb 12)⟩,
  -- /repo/src/yuv_p16_rgba16_alpha.rs:573-582
  ⟨w!"i014_alpha_to_rgba14", .call (.yuv16AlphaToRgb16 .rgba .yuv420 .little .lsb 14)⟩,
  -- /repo/src/yuv_p16_rgba16_alpha.rs:509-518
  ⟨w!"i210_alpha_to_rgba10", .call (.yuv16AlphaToRgb16 .rgba .yuv422 .little .lsb 10)⟩,
  -- /repo/src/yuv_p16_rgba16_alpha.rs:595-604
  ⟨w!"i212_alpha_to_rgba12", .call (.yuv16AlphaToRgb16 .rgba .yuv422 .little .lsb 12)⟩,
  -- /repo/src/yuv_p16_rgba16_alpha.rs:616-625
  ⟨w!"i214_alpha_to_rgba14", .call (.yuv16AlphaToRgb16 .rgba .yuv422 .little .lsb 14)⟩,
  -- /repo/src/yuv_p16_rgba16_alpha.rs:530-539
  ⟨w!"i410_alpha_to_rgba10", .call (.yuv16AlphaToRgb16 .rgba .yuv444 .little .lsb 10)⟩,
  -- /repo/src/yuv_p16_rgba16_alpha.rs:638-647
  ⟨w!"i412_alpha_to_rgba12", .call (.yuv16AlphaToRgb16 .rgba .yuv444 .little .lsb 12)⟩,
  -- /repo/src/yuv_p16_rgba16_alpha.rs:659-668
  ⟨w!"i414_alpha_to_rgba14", .call (.yuv16AlphaToRgb16 .rgba .yuv444 .little .lsb 14)⟩,
  -- /repo/src/yuv_p16_rgba16_alpha.rs:498-507
  ⟨w!"i010_be_alpha_to_rgba10", .call (.yuv16AlphaToRgb16 .rgba .yuv420 .big .lsb 10)⟩,
  -- /repo/src/yuv_p16_rgba16_alpha.rs:563-572
  ⟨w!"i012_be_alpha_to_rgba12", .call (.yuv16AlphaToRgb16 .rgba .yuv420 .big .lsb 12)⟩,
  -- /repo/src/yuv_p16_rgba16_alpha.rs:584-593
  ⟨w!"i014_be_alpha_to_rgba14", .call (.yuv16AlphaToRgb16 .rgba .yuv420 .big .lsb 14)⟩,
  -- /repo/src/yuv_p16_rgba16_alpha.rs:520-529
  ⟨w!"i210_alpha_be_to_rgba10", .call (.yuv16AlphaToRgb16 .rgba .yuv422 .little .lsb 10)⟩,
  -- /repo/src/yuv_p16_rgba16_alpha.rs:606-615
  ⟨w!"i212_be_alpha_to_rgba12", .call (.yuv16AlphaToRgb16 .rgba .yuv422 .little .lsb 12)⟩,
  -- /repo/src/yuv_p16_rgba16_alpha.rs:627-636
  ⟨w!"i214_be_alpha_to_rgba14", .call (.yuv16AlphaToRgb16 .rgba .yuv422 .little .lsb 14)⟩,
  -- /repo/src/yuv_p16_rgba16_alpha.rs:541-550
  ⟨w!"i410_be_alpha_to_rgba10", .call (.yuv16AlphaToRgb16 .rgba .yuv444 .big .lsb 10)⟩,
  -- /repo/src/yuv_p16_rgba16_alpha.rs:649-658
  ⟨w!"i412_be_alpha_to_rgba12", .call (.yuv16AlphaToRgb16 .rgba .yuv444 .big .lsb 12)⟩,
  -- /repo/src/yuv_p16_rgba16_alpha.rs:670-679
  ⟨w!"i414_be_alpha_to_rgba14", .call (.yuv16AlphaToRgb16 .rgba .yuv444 .big .lsb 14)⟩]

/-- The public functions of /repo/src/yuv_p16_rgba_p16.rs. -/
def api_yuv_p16_rgba_p16 : List ApiRow := [
  -- /repo/src/yuv_p16_rgba_p16.rs:636-645
  ⟨w!"i010_be_to_rgb10", .call (.yuv16ToRgb16 .rgb .yuv420 .big .lsb 10)⟩,
  -- /repo/src/yuv_p16_rgba_p16.rs:615-624
  ⟨w!"i010_be_to_rgba10", .call (.yuv16ToRgb16 .rgba .yuv420 .big .lsb 10)⟩,
  -- /repo/src/yuv_p16_rgba_p16.rs:763-772
  ⟨w!"i012_be_to_rgb12", .call (.yuv16ToRgb16 .rgb .yuv420 .big .lsb 12)⟩,
  -- /repo/src/yuv_p16_rgba_p16.rs:742-751
  ⟨w!"i012_be_to_rgba12", .call (.yuv16ToRgb16 .rgba .yuv420 .big .lsb 12)⟩,
  -- /repo/src/yuv_p16_rgba_p16.rs:892-901
  ⟨w!"i014_be_to_rgb14", .call (.yuv16ToRgb16 .rgb .yuv420 .big .lsb 14)⟩,
  -- /repo/src/yuv_p16_rgba_p16.rs:871-880
  ⟨w!"i014_be_to_rgba14", .call (.yuv16ToRgb16 .rgba .yuv420 .big .lsb 14)⟩,
  -- /repo/src/yuv_p16_rgba_p16.rs:1027-1036
  ⟨w!"i016_be_to_rgb16", .call (.yuv16ToRgb16 .rgb .yuv420 .big .lsb 16)⟩,
  -- /repo/src/yuv_p16_rgba_p16.rs:1006-1015
  ⟨w!"i016_be_to_rgba16", .call (.yuv16ToRgb16 .rgba .yuv420 .big .lsb 16)⟩,
  -- /repo/src/yuv_p16_rgba_p16.rs:678-687
  ⟨w!"i210_be_to_rgb10", .call (.yuv16ToRgb16 .rgb .yuv422 .big .lsb 10)⟩,
  -- /repo/src/yuv_p16_rgba_p16.rs:657-666
  ⟨w!"i210_be_to_rgba10", .call (.yuv16ToRgb16 .rgba .yuv422 .big .lsb 10)⟩,
  -- /repo/src/yuv_p16_rgba_p16.rs:805-814
  ⟨w!"i212_be_to_rgb12", .call (.yuv16ToRgb16 .rgb .yuv422 .big .lsb 12)⟩,
  -- /repo/src/yuv_p16_rgba_p16.rs:784-793
  ⟨w!"i212_be_to_rgba12", .call (.yuv16ToRgb16 .rgba .yuv422 .big .lsb 12)⟩,
  -- /repo/src/yuv_p16_rgba_p16.rs:937-946
  ⟨w!"i214_be_to_rgb14", .call (.yuv16ToRgb16 .rgb .yuv422 .big .lsb 14)⟩,
  -- /repo/src/yuv_p16_rgba_p16.rs:916-925
  ⟨w!"i214_be_to_rgba14", .call (.yuv16ToRgb16 .rgba .yuv422 .big .lsb 14)⟩,
  -- /repo/src/yuv_p16_rgba_p16.rs:1072-1081
  ⟨w!"i216_be_to_rgb16", .call (.yuv16ToRgb16 .rgb .yuv422 .big .lsb 16)⟩,
  -- /repo/src/yuv_p16_rgba_p16.rs:1051-1060
  ⟨w!"i216_be_to_rgba16", .call (.yuv16ToRgb16 .rgba .yuv422 .big .lsb 16)⟩,
  -- /repo/src/yuv_p16_rgba_p16.rs:720-729
  ⟨w!"i410_be_to_rgb10", .call (.yuv16ToRgb16 .rgb .yuv444 .big .lsb 10)⟩,
  -- /repo/src/yuv_p16_rgba_p16.rs:699-708
  ⟨w!"i410_be_to_rgba10", .call (.yuv16ToRgb16 .rgba .yuv444 .big .lsb 10)⟩,
  -- /repo/src/yuv_p16_rgba_p16.rs:847-856
  ⟨w!"i412_be_to_rgb12", .call (.yuv16ToRgb16 .rgb .yuv444 .big .lsb 12)⟩,
  -- /repo/src/yuv_p16_rgba_p16.rs:826-835
  ⟨w!"i412_be_to_rgba12", .call (.yuv16ToRgb16 .rgba .yuv444 .big .lsb 12)⟩,
  -- /repo/src/yuv_p16_rgba_p16.rs:982-991
  ⟨w!"i414_be_to_rgb14", .call (.yuv16ToRgb16 .rgb .yuv444 .big .lsb 14)⟩,
  -- /repo/src/yuv_p16_rgba_p16.rs:961-970
  ⟨w!"i414_be_to_rgba14", .call (.yuv16ToRgb16 .rgba .yuv444 .big .lsb 14)⟩,
  -- /repo/src/yuv_p16_rgba_p16.rs:1117-1126
  ⟨w!"i416_be_to_rgb16", .call (.yuv16ToRgb16 .rgb .yuv444 .big .lsb 16)⟩,
  -- /repo/src/yuv_p16_rgba_p16.rs:1096-1105
  ⟨w!"i416_be_to_rgba16", .call (.yuv16ToRgb16 .rgba .yuv444 .big .lsb 16)⟩,
  -- /repo/src/yuv_p16_rgba_p16.rs:625-634
  ⟨w!"i010_to_rgb10", .call (.yuv16ToRgb16 .rgb .yuv420 .little .lsb 10)⟩,
  -- /repo/src/yuv_p16_rgba_p16.rs:604-613
  ⟨w!"i010_to_rgba10", .call (.yuv16ToRgb16 .rgba .yuv420 .little .lsb 10)⟩,
  -- /repo/src/yuv_p16_rgba_p16.rs:752-761
  ⟨w!"i012_to_rgb12", .call (.yuv16ToRgb16 .rgb .yuv420 .little .lsb 12)⟩,
  -- /repo/src/yuv_p16_rgba_p16.rs:731-740
  ⟨w!"i012_to_rgba12", .call (.yuv16ToRgb16 .rgba .yuv420 .little .lsb 12)⟩,
  -- /repo/src/yuv_p16_rgba_p16.rs:881-890
  ⟨w!"i014_to_rgb14", .call (.yuv16ToRgb16 .rgb .yuv420 .little .lsb 14)⟩,
  -- /repo/src/yuv_p16_rgba_p16.rs:860-869
  ⟨w!"i014_to_rgba14", .call (.yuv16ToRgb16 .rgba .yuv420 .little .lsb 14)⟩,
  -- /repo/src/yuv_p16_rgba_p16.rs:1016-1025
  ⟨w!"i016_to_rgb16", .call (.yuv16ToRgb16 .rgb .yuv420 .little .lsb 16)⟩,
  -- /repo/src/yuv_p16_rgba_p16.rs:995-1004
  ⟨w!"i016_to_rgba16", .call (.yuv16ToRgb16 .rgba .yuv420 .little .lsb 16)⟩,
  -- /repo/src/yuv_p16_rgba_p16.rs:667-676
  ⟨w!"i210_to_rgb10", .call (.yuv16ToRgb16 .rgb .yuv422 .little .lsb 10)⟩,
  -- /repo/src/yuv_p16_rgba_p16.rs:646-655
  ⟨w!"i210_to_rgba10", .call (.yuv16ToRgb16 .rgba .yuv422 .little .lsb 10)⟩,
  -- /repo/src/yuv_p16_rgba_p16.rs:794-803
  ⟨w!"i212_to_rgb12", .call (.yuv16ToRgb16 .rgb .yuv422 .little .lsb 12)⟩,
  -- /repo/src/yuv_p16_rgba_p16.rs:773-782
  ⟨w!"i212_to_rgba12", .call (.yuv16ToRgb16 .rgba .yuv422 .little .lsb 12)⟩,
  -- /repo/src/yuv_p16_rgba_p16.rs:926-935
  ⟨w!"i214_to_rgb14", .call (.yuv16ToRgb16 .rgb .yuv422 .little .lsb 14)⟩,
  -- /repo/src/yuv_p16_rgba_p16.rs:905-914
  ⟨w!"i214_to_rgba14", .call (.yuv16ToRgb16 .rgba .yuv422 .little .lsb 14)⟩,
  -- /repo/src/yuv_p16_rgba_p16.rs:1061-1070
  ⟨w!"i216_to_rgb16", .call (.yuv16ToRgb16 .rgb .yuv422 .little .lsb 16)⟩,
  -- /repo/src/yuv_p16_rgba_p16.rs:1040-1049
  ⟨w!"i216_to_rgba16", .call (.yuv16ToRgb16 .rgba .yuv422 .little .lsb 16)⟩,
  -- /repo/src/yuv_p16_rgba_p16.rs:709-718
  ⟨w!"i410_to_rgb10", .call (.yuv16ToRgb16 .rgb .yuv444 .little .lsb 10)⟩,
  -- /repo/src/yuv_p16_rgba_p16.rs:688-697
  ⟨w!"i410_to_rgba10", .call (.yuv16ToRgb16 .rgba .yuv444 .little .lsb 10)⟩,
  -- /repo/src/yuv_p16_rgba_p16.rs:836-845
  ⟨w!"i412_to_rgb12", .call (.yuv16ToRgb16 .rgb .yuv444 .little .lsb 12)⟩,
  -- /repo/src/yuv_p16_rgba_p16.rs:815-824
  ⟨w!"i412_to_rgba12", .call (.yuv16ToRgb16 .rgba .yuv444 .little .lsb 12)⟩,
  -- /repo/src/yuv_p16_rgba_p16.rs:971-980
  ⟨w!"i414_to_rgb14", .call (.yuv16ToRgb16 .rgb .yuv444 .little .lsb 14)⟩,
  -- /repo/src/yuv_p16_rgba_p16.rs:950-959
  ⟨w!"i414_to_rgba14", .call (.yuv16ToRgb16 .rgba .yuv444 .little .lsb 14)⟩,
  -- /repo/src/yuv_p16_rgba_p16.rs:1106-1115
  ⟨w!"i416_to_rgb16", .call (.yuv16ToRgb16 .rgb .yuv444 .little .lsb 16)⟩,
  -- /repo/src/yuv_p16_rgba_p16.rs:1085-1094
  ⟨w!"i416_to_rgba16", .call (.yuv16ToRgb16 .rgba .yuv444 .little .lsb 16)⟩]

/-- The public functions of /repo/src/yuva_p16_rgba_f16.rs. -/
def api_yuva_p16_rgba_f16 : List ApiRow := [
  -- /repo/src/yuva_p16_rgba_f16.rs:563-571
  ⟨w!"i010_alpha_to_rgba_f16", .call (.yuv16AlphaToHalf .rgba .yuv420 .little .lsb 10)⟩,
  -- /repo/src/yuva_p16_rgba_f16.rs:573-581
  ⟨w!"i012_alpha_to_rgba_f16", .call (.yuv16AlphaToHalf .rgba .yuv420 .little .lsb 12)⟩,
  -- /repo/src/yuva_p16_rgba_f16.rs:583-591
  ⟨w!"i014_alpha_to_rgba_f16", .call (.yuv16AlphaToHalf .rgba .yuv420 .little .lsb 14)⟩,
  -- /repo/src/yuva_p16_rgba_f16.rs:593-601
  ⟨w!"i210_alpha_to_rgba_f16", .call (.yuv16AlphaToHalf .rgba .yuv422 .little .lsb 10)⟩,
  -- /repo/src/yuva_p16_rgba_f16.rs:603-611
  ⟨w!"i212_alpha_to_rgba_f16", .call (.yuv16AlphaToHalf .rgba .yuv422 .little .lsb 12)⟩,
  -- /repo/src/yuva_p16_rgba_f16.rs:613-621
  ⟨w!"i214_alpha_to_rgba_f16", .call (.yuv16AlphaToHalf .rgba .yuv422 .little .lsb 14)⟩,
  -- /repo/src/yuva_p16_rgba_f16.rs:623-631
  ⟨w!"i410_alpha_to_rgba_f16", .call (.yuv16AlphaToHalf .rgba .yuv444 .little .lsb 10)⟩,
  -- /repo/src/yuva_p16_rgba_f16.rs:633-641
  ⟨w!"i412_alpha_to_rgba_f16", .call (.yuv16AlphaToHalf .rgba .yuv444 .little .lsb 12)⟩,
  -- /repo/src/yuva_p16_rgba_f16.rs:643-651
  ⟨w!"i414_alpha_to_rgba_f16", .call (.yuv16AlphaToHalf .rgba .yuv444 .little .lsb 14)⟩]

/-- The public functions of /repo/src/ar30_rgb.rs. -/
def api_ar30_rgb : List ApiRow := [
  -- /repo/src/ar30_rgb.rs:132-153
  ⟨w!"ab30_to_rgb8", .byteOrder (.ar30ToRgb .ab30 .host .rgb) (.ar30ToRgb .ab30 .network .rgb)⟩,
  -- /repo/src/ar30_rgb.rs:97-118
  ⟨w!"ar30_to_rgb8", .byteOrder (.ar30ToRgb .ar30 .host .rgb) (.ar30ToRgb .ar30 .network .rgb)⟩,
  -- /repo/src/ar30_rgb.rs:237-258
  ⟨w!"ar30_to_rgba8", .byteOrder (.ar30ToRgb .ar30 .host .rgba) (.ar30ToRgb .ar30 .network .rgba)⟩,
  -- /repo/src/ar30_rgb.rs:202-223
  ⟨w!"ba30_to_rgb8", .byteOrder (.ar30ToRgb .ba30 .host .rgb) (.ar30ToRgb .ba30 .network .rgb)⟩,
  -- /repo/src/ar30_rgb.rs:167-188
  ⟨w!"ra30_to_rgb8", .byteOrder (.ar30ToRgb .ra30 .host .rgb) (.ar30ToRgb .ra30 .network .rgb)⟩,
  -- /repo/src/ar30_rgb.rs:272-293
  ⟨w!"ra30_to_rgba8", .byteOrder (.ar30ToRgb .ra30 .host .rgba) (.ar30ToRgb .ra30 .network .rgba)⟩]

/-- The public functions of /repo/src/f16_converter.rs. -/
def api_f16_converter : List ApiRow := [
  -- /repo/src/f16_converter.rs:349-359
  ⟨w!"convert_plane16_to_f16", .call (.toHalf .u16 1)⟩,
  -- /repo/src/f16_converter.rs:427-436
  ⟨w!"convert_plane_f16_to_planar", .call (.fromHalf .u8 1)⟩,
  -- /repo/src/f16_converter.rs:497-509
  ⟨w!"convert_plane_f16_to_planar16", .call (.fromHalf .u16 1)⟩,
  -- /repo/src/f16_converter.rs:275-284
  ⟨w!"convert_plane_to_f16", .call (.toHalf .u8 1)⟩,
  -- /repo/src/f16_converter.rs:403-413
  ⟨w!"convert_rgb16_to_f16", .call (.toHalf .u16 3)⟩,
  -- /repo/src/f16_converter.rs:450-459
  ⟨w!"convert_rgb_f16_to_rgb", .call (.fromHalf .u8 3)⟩,
  -- /repo/src/f16_converter.rs:524-536
  ⟨w!"convert_rgb_f16_to_rgb16", .call (.fromHalf .u16 3)⟩,
  -- /repo/src/f16_converter.rs:325-334
  ⟨w!"convert_rgb_to_f16", .call (.toHalf .u8 3)⟩,
  -- /repo/src/f16_converter.rs:376-386
  ⟨w!"convert_rgba16_to_f16", .call (.toHalf .u16 4)⟩,
  -- /repo/src/f16_converter.rs:473-482
  ⟨w!"convert_rgba_f16_to_rgba", .call (.fromHalf .u8 4)⟩,
  -- /repo/src/f16_converter.rs:551-563
  ⟨w!"convert_rgba_f16_to_rgba16", .call (.fromHalf .u16 4)⟩,
  -- /repo/src/f16_converter.rs:300-309
  ⟨w!"convert_rgba_to_f16", .call (.toHalf .u8 4)⟩]

/-- The public functions of /repo/src/rgb_ar30.rs. -/
def api_rgb_ar30 : List ApiRow := [
  -- /repo/src/rgb_ar30.rs:438-449
  ⟨w!"rgb10_to_ar30", .byteOrder (.rgbToAr30 .u16 .ar30 .host .rgb 10) (.rgbToAr30 .u16 .ar30 .network .rgb 10)⟩,
  -- /repo/src/rgb_ar30.rs:450-461
  ⟨w!"rgb10_to_ra30", .byteOrder (.rgbToAr30 .u16 .ra30 .host .rgb 10) (.rgbToAr30 .u16 .ra30 .network .rgb 10)⟩,
  -- /repo/src/rgb_ar30.rs:462-473
  ⟨w!"rgb12_to_ar30", .byteOrder (.rgbToAr30 .u16 .ar30 .host .rgb 12) (.rgbToAr30 .u16 .ar30 .network .rgb 12)⟩,
  -- /repo/src/rgb_ar30.rs:474-485
  ⟨w!"rgb12_to_ra30", .byteOrder (.rgbToAr30 .u16 .ra30 .host .rgb 12) (.rgbToAr30 .u16 .ra30 .network .rgb 12)⟩,
  -- /repo/src/rgb_ar30.rs:389-400
  ⟨w!"rgb8_to_ar30", .byteOrder (.rgbToAr30 .u8 .ar30 .host .rgb 8) (.rgbToAr30 .u8 .ar30 .network .rgb 8)⟩,
  -- /repo/src/rgb_ar30.rs:401-412
  ⟨w!"rgb8_to_ra30", .byteOrder (.rgbToAr30 .u8 .ra30 .host .rgb 8) (.rgbToAr30 .u8 .ra30 .network .rgb 8)⟩,
  -- /repo/src/rgb_ar30.rs:487-498
  ⟨w!"rgba10_to_ar30", .byteOrder (.rgbToAr30 .u16 .ar30 .host .rgba 10) (.rgbToAr30 .u16 .ar30 .network .rgba 10)⟩,
  -- /repo/src/rgb_ar30.rs:499-510
  ⟨w!"rgba10_to_ra30", .byteOrder (.rgbToAr30 .u16 .ra30 .host .rgba 10) (.rgbToAr30 .u16 .ra30 .network .rgba 10)⟩,
  -- /repo/src/rgb_ar30.rs:511-522
  ⟨w!"rgba12_to_ar30", .byteOrder (.rgbToAr30 .u16 .ar30 .host .rgba 12) (.rgbToAr30 .u16 .ar30 .network .rgba 12)⟩,
  -- /repo/src/rgb_ar30.rs:523-534
  ⟨w!"rgba12_to_ra30", .byteOrder (.rgbToAr30 .u16 .ra30 .host .rgba 12) (.rgbToAr30 .u16 .ra30 .network .rgba 12)⟩,
  -- /repo/src/rgb_ar30.rs:413-424
  ⟨w!"rgba8_to_ar30", .byteOrder (.rgbToAr30 .u8 .ar30 .host .rgba 8) (.rgbToAr30 .u8 .ar30 .network .rgba 8)⟩,
  -- /repo/src/rgb_ar30.rs:425-436
  ⟨w!"rgba8_to_ra30", .byteOrder (.rgbToAr30 .u8 .ra30 .host .rgba 8) (.rgbToAr30 .u8 .ra30 .network .rgba 8)⟩]

/-- The public functions of /repo/src/shuffle.rs. -/
def api_shuffle : List ApiRow := [
  -- /repo/src/shuffle.rs:364-375
  ⟨w!"bgr_to_bgra", .call (.shuffle .u8 .bgr .bgra 8)⟩,
  -- /repo/src/shuffle.rs:312-323
  ⟨w!"bgr_to_rgb", .call (.shuffle .u8 .bgr .rgb 8)⟩,
  -- /repo/src/shuffle.rs:338-349
  ⟨w!"bgr_to_rgba", .call (.shuffle .u8 .bgr .rgba 8)⟩,
  -- /repo/src/shuffle.rs:468-479
  ⟨w!"bgra_to_bgr", .call (.shuffle .u8 .bgra .bgr 8)⟩,
  -- /repo/src/shuffle.rs:442-453
  ⟨w!"bgra_to_rgb", .call (.shuffle .u8 .bgra .rgb 8)⟩,
  -- /repo/src/shuffle.rs:416-427
  ⟨w!"bgra_to_rgba", .call (.shuffle .u8 .bgra .rgba 8)⟩,
  -- /repo/src/shuffle.rs:286-297
  ⟨w!"rgb_to_bgr", .call (.shuffle .u8 .rgb .bgr 8)⟩,
  -- /repo/src/shuffle.rs:260-271
  ⟨w!"rgb_to_bgra", .call (.shuffle .u8 .rgb .bgra 8)⟩,
  -- /repo/src/shuffle.rs:390-401
  ⟨w!"rgb_to_rgba", .call (.shuffle .u8 .rgb .rgba 8)⟩,
  -- /repo/src/shuffle.rs:208-219
  ⟨w!"rgba_to_bgr", .call (.shuffle .u8 .rgba .bgr 8)⟩,
  -- /repo/src/shuffle.rs:182-193
  ⟨w!"rgba_to_bgra", .call (.shuffle .u8 .rgba .bgra 8)⟩,
  -- /repo/src/shuffle.rs:234-245
  ⟨w!"rgba_to_rgb", .call (.shuffle .u8 .rgba .rgb 8)⟩]

/-- The public functions of /repo/src/yuv_nv_p10_to_ar30.rs. -/
def api_yuv_nv_p10_to_ar30 : List ApiRow := [
  -- /repo/src/yuv_nv_p10_to_ar30.rs:554-562
  ⟨w!"p010_to_ar30", .call (.nv16ToAr30 .ar30 .uv .yuv420 .little .msb 10 14)⟩,
  -- /repo/src/yuv_nv_p10_to_ar30.rs:563-571
  ⟨w!"p010_to_ra30", .call (.nv16ToAr30 .ra30 .uv .yuv420 .little .msb 10 14)⟩,
  -- /repo/src/yuv_nv_p10_to_ar30.rs:591-599
  ⟨w!"p012_to_ar30", .call (.nv16ToAr30 .ar30 .uv .yuv420 .little .msb 12 16)⟩,
  -- /repo/src/yuv_nv_p10_to_ar30.rs:600-608
  ⟨w!"p012_to_ra30", .call (.nv16ToAr30 .ra30 .uv .yuv420 .little .msb 12 16)⟩,
  -- /repo/src/yuv_nv_p10_to_ar30.rs:572-580
  ⟨w!"p210_to_ar30", .call (.nv16ToAr30 .ar30 .uv .yuv422 .little .msb 10 14)⟩,
  -- /repo/src/yuv_nv_p10_to_ar30.rs:581-589
  ⟨w!"p210_to_ra30", .call (.nv16ToAr30 .ra30 .uv .yuv422 .little .msb 10 14)⟩,
  -- /repo/src/yuv_nv_p10_to_ar30.rs:609-617
  ⟨w!"p212_to_ar30", .call (.nv16ToAr30 .ar30 .uv .yuv422 .little .msb 12 16)⟩,
  -- /repo/src/yuv_nv_p10_to_ar30.rs:618-626
  ⟨w!"p212_to_ra30", .call (.nv16ToAr30 .ra30 .uv .yuv422 .little .msb 12 16)⟩]

/-- The public functions of /repo/src/yuv_p16_ar30.rs. -/
def api_yuv_p16_ar30 : List ApiRow := [
  -- /repo/src/yuv_p16_ar30.rs:341-349
  ⟨w!"i010_to_ar30", .byteOrder (.yuv16ToAr30 .ar30 .host .yuv420 .little .lsb 10) (.yuv16ToAr30 .ar30 .network .yuv420 .little .lsb 10)⟩,
  -- /repo/src/yuv_p16_ar30.rs:368-376
  ⟨w!"i010_to_ra30", .byteOrder (.yuv16ToAr30 .ra30 .host .yuv420 .little .lsb 10) (.yuv16ToAr30 .ra30 .network .yuv420 .little .lsb 10)⟩,
  -- /repo/src/yuv_p16_ar30.rs:350-358
  ⟨w!"i012_to_ar30", .byteOrder (.yuv16ToAr30 .ar30 .host .yuv420 .little .lsb 12) (.yuv16ToAr30 .ar30 .network .yuv420 .little .lsb 12)⟩,
  -- /repo/src/yuv_p16_ar30.rs:377-385
  ⟨w!"i012_to_ra30", .byteOrder (.yuv16ToAr30 .ra30 .host .yuv420 .little .lsb 12) (.yuv16ToAr30 .ra30 .network .yuv420 .little .lsb 12)⟩,
  -- /repo/src/yuv_p16_ar30.rs:359-367
  ⟨w!"i014_to_ar30", .byteOrder (.yuv16ToAr30 .ar30 .host .yuv420 .little .lsb 14) (.yuv16ToAr30 .ar30 .network .yuv420 .little .lsb 14)⟩,
  -- /repo/src/yuv_p16_ar30.rs:386-394
  ⟨w!"i014_to_ra30", .byteOrder (.yuv16ToAr30 .ra30 .host .yuv420 .little .lsb 14) (.yuv16ToAr30 .ra30 .network .yuv420 .little .lsb 14)⟩,
  -- /repo/src/yuv_p16_ar30.rs:396-404
  ⟨w!"i210_to_ar30", .byteOrder (.yuv16ToAr30 .ar30 .host .yuv422 .little .lsb 10) (.yuv16ToAr30 .ar30 .network .yuv422 .little .lsb 10)⟩,
  -- /repo/src/yuv_p16_ar30.rs:423-431
  ⟨w!"i210_to_ra30", .byteOrder (.yuv16ToAr30 .ra30 .host .yuv422 .little .lsb 10) (.yuv16ToAr30 .ra30 .network .yuv422 .little .lsb 10)⟩,
  -- /repo/src/yuv_p16_ar30.rs:405-413
  ⟨w!"i212_to_ar30", .byteOrder (.yuv16ToAr30 .ar30 .host .yuv422 .little .lsb 12) (.yuv16ToAr30 .ar30 .network .yuv422 .little .lsb 12)⟩,
  -- /repo/src/yuv_p16_ar30.rs:432-440
  ⟨w!"i212_to_ra30", .byteOrder (.yuv16ToAr30 .ra30 .host .yuv422 .little .lsb 12) (.yuv16ToAr30 .ra30 .network .yuv422 .little .lsb 12)⟩,
  -- /repo/src/yuv_p16_ar30.rs:414-422
  ⟨w!"i214_to_ar30", .byteOrder (.yuv16ToAr30 .ar30 .host .yuv422 .little .lsb 14) (.yuv16ToAr30 .ar30 .network .yuv422 .little .lsb 14)⟩,
  -- /repo/src/yuv_p16_ar30.rs:441-449
  ⟨w!"i214_to_ra30", .byteOrder (.yuv16ToAr30 .ra30 .host .yuv422 .little .lsb 14) (.yuv16ToAr30 .ra30 .network .yuv422 .little .lsb 14)⟩,
  -- /repo/src/yuv_p16_ar30.rs:451-459
  ⟨w!"i410_to_ar30", .byteOrder (.yuv16ToAr30 .ar30 .host .yuv444 .little .lsb 10) (.yuv16ToAr30 .ar30 .network .yuv444 .little .lsb 10)⟩,
  -- /repo/src/yuv_p16_ar30.rs:478-486
  ⟨w!"i410_to_ra30", .byteOrder (.yuv16ToAr30 .ra30 .host .yuv444 .little .lsb 10) (.yuv16ToAr30 .ra30 .network .yuv444 .little .lsb 10)⟩,
  -- /repo/src/yuv_p16_ar30.rs:460-468
  ⟨w!"i412_to_ar30", .byteOrder (.yuv16ToAr30 .ar30 .host .yuv444 .little .lsb 12) (.yuv16ToAr30 .ar30 .network .yuv444 .little .lsb 12)⟩,
  -- /repo/src/yuv_p16_ar30.rs:487-495
  ⟨w!"i412_to_ra30", .byteOrder (.yuv16ToAr30 .ra30 .host .yuv444 .little .lsb 12) (.yuv16ToAr30 .ra30 .network .yuv444 .little .lsb 12)⟩,
  -- /repo/src/yuv_p16_ar30.rs:469-477
  ⟨w!"i414_to_ar30", .byteOrder (.yuv16ToAr30 .ar30 .host .yuv444 .little .lsb 14) (.yuv16ToAr30 .ar30 .network .yuv444 .little .lsb 14)⟩,
  -- /repo/src/yuv_p16_ar30.rs:496-504
  ⟨w!"i414_to_ra30", .byteOrder (.yuv16ToAr30 .ra30 .host .yuv444 .little .lsb 14) (.yuv16ToAr30 .ra30 .network .yuv444 .little .lsb 14)⟩]

/-- The public functions of /repo/src/rdp.rs. -/
def api_rdp : List ApiRow := [
  -- /repo/src/rdp.rs:320-320
  ⟨w!"rdp_abgr_to_yuv444", .call (.rgbToRdp .abgr)⟩,
  -- /repo/src/rdp.rs:322-322
  ⟨w!"rdp_argb_to_yuv444", .call (.rgbToRdp .argb)⟩,
  -- /repo/src/rdp.rs:321-321
  ⟨w!"rdp_bgr_to_yuv444", .call (.rgbToRdp .bgr)⟩,
  -- /repo/src/rdp.rs:319-319
  ⟨w!"rdp_bgra_to_yuv444", .call (.rgbToRdp .bgra)⟩,
  -- /repo/src/rdp.rs:317-317
  ⟨w!"rdp_rgb_to_yuv444", .call (.rgbToRdp .rgb)⟩,
  -- /repo/src/rdp.rs:318-318
  ⟨w!"rdp_rgba_to_yuv444", .call (.rgbToRdp .rgba)⟩,
  -- /repo/src/rdp.rs:433-439
  ⟨w!"rdp_yuv444_to_abgr", .call (.rdpToRgb .abgr)⟩,
  -- /repo/src/rdp.rs:441-447
  ⟨w!"rdp_yuv444_to_argb", .call (.rdpToRgb .argb)⟩,
  -- /repo/src/rdp.rs:440-440
  ⟨w!"rdp_yuv444_to_bgr", .call (.rdpToRgb .bgr)⟩,
  -- /repo/src/rdp.rs:426-432
  ⟨w!"rdp_yuv444_to_bgra", .call (.rdpToRgb .bgra)⟩,
  -- /repo/src/rdp.rs:418-418
  ⟨w!"rdp_yuv444_to_rgb", .call (.rdpToRgb .rgb)⟩,
  -- /repo/src/rdp.rs:419-425
  ⟨w!"rdp_yuv444_to_rgba", .call (.rdpToRgb .rgba)⟩]

/-- The public functions of /repo/src/yuv_p16_rgba_f16.rs. -/
def api_yuv_p16_rgba_f16 : List ApiRow := [
  -- /repo/src/yuv_p16_rgba_f16.rs:555-563
  ⟨w!"i010_to_rgb_f16", .call (.yuv16ToHalf .rgb .yuv420 .little .lsb 10)⟩,
  -- /repo/src/yuv_p16_rgba_f16.rs:545-553
  ⟨w!"i010_to_rgba_f16", .call (.yuv16ToHalf .rgba .yuv420 .little .lsb 10)⟩,
  -- /repo/src/yuv_p16_rgba_f16.rs:575-583
  ⟨w!"i012_to_rgb_f16", .call (.yuv16ToHalf .rgb .yuv420 .little .lsb 12)⟩,
  -- /repo/src/yuv_p16_rgba_f16.rs:565-573
  ⟨w!"i012_to_rgba_f16", .call (.yuv16ToHalf .rgba .yuv420 .little .lsb 12)⟩,
  -- /repo/src/yuv_p16_rgba_f16.rs:595-603
  ⟨w!"i014_to_rgb_f16", .call (.yuv16ToHalf .rgb .yuv420 .little .lsb 14)⟩,
  -- /repo/src/yuv_p16_rgba_f16.rs:585-593
  ⟨w!"i014_to_rgba_f16", .call (.yuv16ToHalf .rgba .yuv420 .little .lsb 14)⟩,
  -- /repo/src/yuv_p16_rgba_f16.rs:615-623
  ⟨w!"i210_to_rgb_f16", .call (.yuv16ToHalf .rgb .yuv422 .little .lsb 10)⟩,
  -- /repo/src/yuv_p16_rgba_f16.rs:605-613
  ⟨w!"i210_to_rgba_f16", .call (.yuv16ToHalf .rgba .yuv422 .little .lsb 10)⟩,
  -- /repo/src/yuv_p16_rgba_f16.rs:635-643
  ⟨w!"i212_to_rgb_f16", .call (.yuv16ToHalf .rgb .yuv422 .little .lsb 12)⟩,
  -- /repo/src/yuv_p16_rgba_f16.rs:625-633
  ⟨w!"i212_to_rgba_f16", .call (.yuv16ToHalf .rgba .yuv422 .little .lsb 12)⟩,
  -- /repo/src/yuv_p16_rgba_f16.rs:655-663
  ⟨w!"i214_to_rgb_f16", .call (.yuv16ToHalf .rgb .yuv422 .little .lsb 14)⟩,
  -- /repo/src/yuv_p16_rgba_f16.rs:645-653
  ⟨w!"i214_to_rgba_f16", .call (.yuv16ToHalf .rgba .yuv422 .little .lsb 14)⟩,
  -- /repo/src/yuv_p16_rgba_f16.rs:675-683
  ⟨w!"i410_to_rgb_f16", .call (.yuv16ToHalf .rgb .yuv444 .little .lsb 10)⟩,
  -- /repo/src/yuv_p16_rgba_f16.rs:665-673
  ⟨w!"i410_to_rgba_f16", .call (.yuv16ToHalf .rgba .yuv444 .little .lsb 10)⟩,
  -- /repo/src/yuv_p16_rgba_f16.rs:695-703
  ⟨w!"i412_to_rgb_f16", .call (.yuv16ToHalf .rgb .yuv444 .little .lsb 12)⟩,
  -- /repo/src/yuv_p16_rgba_f16.rs:685-693
  ⟨w!"i412_to_rgba_f16", .call (.yuv16ToHalf .rgba .yuv444 .little .lsb 12)⟩,
  -- /repo/src/yuv_p16_rgba_f16.rs:715-723
  ⟨w!"i414_to_rgb_f16", .call (.yuv16ToHalf .rgb .yuv444 .little .lsb 14)⟩,
  -- /repo/src/yuv_p16_rgba_f16.rs:705-713
  ⟨w!"i414_to_rgba_f16", .call (.yuv16ToHalf .rgba .yuv444 .little .lsb 14)⟩]

/-- The public functions of /repo/src/ayuv_to_rgb.rs. -/
def api_ayuv_to_rgb : List ApiRow := [
  -- /repo/src/ayuv_to_rgb.rs:326-332
  ⟨w!"ayuv_to_rgb", .call (.packed444ToRgb .rgb .ayuv)⟩,
  -- /repo/src/ayuv_to_rgb.rs:333-339
  ⟨w!"ayuv_to_rgba", .call (.packed444ToRgb .rgba .ayuv)⟩,
  -- /repo/src/ayuv_to_rgb.rs:311-317
  ⟨w!"vyua_to_rgb", .call (.packed444ToRgb .rgb .vuya)⟩,
  -- /repo/src/ayuv_to_rgb.rs:318-324
  ⟨w!"vyua_to_rgba", .call (.packed444ToRgb .rgba .vuya)⟩]

/-- The public conversion functions re-exported by /repo/src/lib.rs:144-557 (the
rotation and mirroring functions, which take no layout, are in Model/Turn.lean). -/
def apiFiles : List (List ApiRow) := [
  api_yuv_nv_p10_to_rgb,
  api_yuv_nv_p16_to_rgb16,
  api_yuv_nv_to_rgba,
  api_rgba_to_nv,
  api_yuv_to_rgba,
  api_rgba_to_yuv,
  api_rgb16_to_yuv_p16,
  api_yuv_to_rgba_alpha,
  api_rgb_to_y,
  api_y_to_rgb,
  api_yuv_p10_rgba,
  api_rgb_to_ycgco,
  api_ycgco_to_rgb,
  api_ycgco_to_rgb_alpha,
  api_yuv_to_yuy2,
  api_yuy2_to_yuv,
  api_to_identity,
  api_rgb_to_nv_p16,
  api_yuy2_to_rgb,
  api_yuy2_to_yuv_p16,
  api_yuv_to_yuy2_p16,
  api_yuy2_to_rgb_p16,
  api_sharp_rgba_to_yuv,
  api_from_identity,
  api_from_identity_f16,
  api_from_identity_alpha_f16,
  api_from_identity_alpha,
  api_y_p16_to_rgb16,
  api_y_p16_with_alpha_to_rgb16,
  api_y_with_alpha_to_rgb,
  api_yuv_p16_rgba_alpha,
  api_yuv_p16_rgba16_alpha,
  api_yuv_p16_rgba_p16,
  api_yuva_p16_rgba_f16,
  api_ar30_rgb,
  api_f16_converter,
  api_rgb_ar30,
  api_shuffle,
  api_yuv_nv_p10_to_ar30,
  api_yuv_p16_ar30,
  api_rdp,
  api_yuv_p16_rgba_f16,
  api_ayuv_to_rgb]

def api : List ApiRow := apiFiles.flatten

end Verif
