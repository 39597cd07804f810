{"id": "C01", "title": "Accepted planar images are in bounds", "statement": "If a planar (or gray, or planar+alpha) image passes its constraint check for a subsampling, then width and height are non-zero, every stride covers one row of its plane, and every luma sample (x,y) and every chroma sample of the ceil-halved chroma grid lies inside the slice that was supplied at index y*stride+x; conversely every image with those dimensions and lengths is accepted.", "quantifier": "all widths, heights, strides (u32), all plane lengths, all three subsamplings, 64-bit usize", "why_tests_cant": "The set of (width,height,stride,length) tuples is astronomically large and the interesting ones sit on exact boundaries and near the integer-overflow edge; tests sample a handful of sizes.", "anchors": ["src/yuv_error.rs: check_y8_channel, check_chroma_channel", "src/images.rs: YuvPlanarImage::check_constraints, YuvGrayImage::check_constraints, YuvPlanarImageWithAlpha::check_constraints"]}
{"id": "C02", "title": "Accepted packed RGB buffers are in bounds", "statement": "The packed RGB buffer validation accepts exactly the buffers with non-zero dimensions whose stride covers one row and whose length covers (height-1) strides plus one packed row; in that case every component of every pixel is inside the buffer, and otherwise the error variant and its expected/received numbers identify the first violated requirement. On a 64-bit target none of the size computations of the check can overflow.", "quantifier": "all lengths, strides, widths, heights (u32) and channel counts 3 and 4", "why_tests_cant": "Boundary behaviour over four 32-bit parameters cannot be enumerated; overflow only shows near 2^32 where no test allocates.", "anchors": ["src/yuv_error.rs: check_rgba_destination, check_overflow_v3"]}
{"id": "C03", "title": "Bi-planar validation is exact", "statement": "A bi-planar image passes validation exactly when its luma plane is in bounds and its interleaved chroma plane is tightly packed (stride = interleaved row = 2*ceil(width/2) or 2*width, length = stride * chroma height); all chroma pairs of an accepted image are in bounds. No size computation overflows for widths below 2^31.", "quantifier": "all widths, heights, strides, lengths, subsamplings", "why_tests_cant": "Boundary behaviour over the full 32-bit parameter space; the overflow happens only for widths no test uses.", "anchors": ["src/yuv_error.rs: check_interleaved_chroma_channel", "src/images.rs: YuvBiPlanarImage::check_constraints"]}
{"id": "C04", "title": "Freshly allocated images are valid", "statement": "Every image returned by an alloc constructor (planar, bi-planar, gray) with non-zero dimensions passes its own constraint check with the subsampling it was allocated for, and its planes hold exactly the number of samples the format requires.", "quantifier": "all non-zero widths and heights (u32) whose planes are addressable, all subsamplings", "why_tests_cant": "Requires the ceil-halving in the allocator to agree with that of the validator for every size, including the largest ones.", "anchors": ["src/images.rs: YuvPlanarImageMut::alloc, YuvBiPlanarImageMut::alloc, YuvGrayImageMut::alloc"]}
{"id": "C05", "title": "A conversion that returns an error has written nothing, and status depends only on geometry", "statement": "For every converter modelled: if it returns an error the destination is exactly what it was before the call; whether it returns Ok or an error depends only on dimensions, strides and buffer lengths, never on sample values.", "quantifier": "all inputs of all converters, valid or not", "why_tests_cant": "Needs all invalid inputs of every converter; a test sees single examples.", "anchors": ["src/yuv_to_rgba.rs: yuv_to_rgbx_impl", "src/rgba_to_yuv.rs: rgbx_to_yuv8_impl", "src/yuv_nv_to_rgba.rs: yuv_nv12_to_rgbx_impl", "src/rgba_to_nv.rs: rgbx_to_nv_impl"]}
{"id": "C06", "title": "Coefficient tables are the correctly rounded ITU matrices", "statement": "Every integer coefficient used to decode or encode with a named matrix (prebuilt table or computed in f32) differs from the exact real coefficient of the ITU-R formula (from kr, kb and the range) scaled by 2^precision by no more than the stated rounding slack, and the prebuilt table and the computed coefficients agree up to that slack.", "quantifier": "all named matrices, both ranges, bit depths 8/10/12/14/16, all precisions used by the crate", "why_tests_cant": "A wrong digit in one of some 250 table entries changes output by less than visual tests notice; the claim is about real-number distance, not about sample outputs.", "anchors": ["src/built_coefficients.rs", "src/yuv_support.rs: get_inverse_transform, get_forward_transform, search_inverse_transform, search_forward_transform, to_integers"]}
{"id": "C07", "title": "Division by 255 used for alpha premultiplication is correctly rounded", "statement": "For every product of two 8-bit values the result is the nearest integer to product/255, no intermediate overflows 16 bits, and the result fits 8 bits. Hence premultiplying never exceeds alpha nor the colour, alpha 255 leaves colours unchanged and alpha 0 gives 0.", "quantifier": "all 65536 pairs (colour, alpha)", "why_tests_cant": "Tests check few pairs; the claim is about every rounding boundary.", "anchors": ["src/numerics.rs: div_by_255", "src/yuv_to_rgba_alpha.rs: yuv_with_alpha_to_rgbx", "src/ayuv_to_rgb.rs"]}
{"id": "C08", "title": "Decoding arithmetic never overflows and always lands in range", "statement": "When decoding YCbCr to RGB with any named matrix, range, depth and precision, for every sample value that fits the declared bit depth, no 32-bit intermediate overflows and every written component is within [0, 2^depth-1] and is the saturated value of the unclamped sum.", "quantifier": "all Y, Cb, Cr values; all named matrices, ranges, depths, precisions", "why_tests_cant": "The worst case is a specific corner of a 3-dimensional sample space that differs per matrix/range.", "anchors": ["src/yuv_to_rgba.rs", "src/yuv_p16_rgba_p16.rs", "src/yuv_nv_to_rgba.rs", "src/numerics.rs: qrshr"]}
{"id": "C09", "title": "Encoding 8-bit never wraps", "statement": "When encoding 8-bit RGB to YCbCr with any named matrix, range and precision, the luma and both chroma values computed for every RGB triple fit the nominal range of the target (Y in [bias_y, bias_y+range_y], Cb/Cr within [0,255] and within half a chroma range of the bias up to rounding), so the final narrowing cast, which is not saturating, never changes the value, and no 32-bit intermediate overflows.", "quantifier": "all 2^24 RGB triples; all named matrices, both ranges, precisions 7, 13, 15", "why_tests_cant": "The code has no clamp; a single triple of a single matrix escaping by one wraps white to black. Exhausting 2^24 triples for each of the 36 configurations is not done by unit tests.", "anchors": ["src/rgba_to_yuv.rs: rgbx_to_yuv8_impl", "src/rgba_to_nv.rs: rgbx_to_nv_impl", "src/rgb_to_y.rs: rgbx_to_y"]}
{"id": "C10", "title": "Decoding is within one code value of the exact ITU result", "statement": "For every Y, Cb, Cr the decoded R, G and B differ from the exact real-valued ITU-R formula clamped to the output range by less than one code value plus the stated coefficient slack.", "quantifier": "all sample triples, all named matrices, both ranges, 8/10/12/14/16 bit", "why_tests_cant": "An error bound over the whole sample cube; tests compare a few triples or a few images.", "anchors": ["src/yuv_to_rgba.rs: yuv_to_rgbx_impl", "src/yuv_support.rs"]}
{"id": "C11", "title": "Encoding is within one code value of the exact ITU result", "statement": "For every RGB triple the encoded Y, Cb and Cr differ from the exact real-valued ITU-R formula by less than one code value.", "quantifier": "all RGB triples, all named matrices, both ranges", "why_tests_cant": "An error bound over the whole cube for every matrix/range.", "anchors": ["src/rgba_to_yuv.rs: rgbx_to_yuv8_impl"]}
{"id": "C12", "title": "Gray is preserved", "statement": "Encoding any gray RGB value (r=g=b) gives exactly neutral chroma (bias_uv) and a luma that is non-decreasing in the gray level, with black mapping to bias_y and white to bias_y+range_y; decoding any luma with neutral chroma gives r=g=b.", "quantifier": "all gray levels, all named matrices, both ranges, all precisions", "why_tests_cant": "Rounded chroma rows need not sum to zero; neutrality must be checked for each level and matrix.", "anchors": ["src/rgba_to_yuv.rs: rgbx_to_yuv8_impl", "src/yuv_to_rgba.rs: yuv_to_rgbx_impl"]}
{"id": "C13", "title": "8-bit 4:4:4 round trip error bound", "statement": "Encoding any RGB triple to 4:4:4 YCbCr and decoding it with the same matrix and range gives back every component within a fixed small number of code values (stated per range).", "quantifier": "all 2^24 RGB triples, all named matrices, both ranges", "why_tests_cant": "Worst case over the whole cube; integration tests use random colours with loose tolerances.", "anchors": ["src/rgba_to_yuv.rs: rgbx_to_yuv8_impl", "src/yuv_to_rgba.rs: yuv_to_rgbx_impl"]}
{"id": "C14", "title": "Decoding is monotone", "statement": "With chroma fixed, raising luma never lowers R, G or B; with luma fixed, raising Cr never lowers R and never raises G, raising Cb never lowers B and never raises G.", "quantifier": "all pairs of samples, all coefficient sets with non-negative coefficients", "why_tests_cant": "A relation between all pairs of inputs.", "anchors": ["src/yuv_to_rgba.rs: yuv_to_rgbx_impl", "src/numerics.rs: qrshr"]}
{"id": "C15", "title": "8-bit planar decode writes exactly the image", "statement": "Converting a valid planar 4:4:4, 4:2:2 or 4:2:0 image to RGB/BGR/RGBA/BGRA returns Ok, writes at every pixel (x,y) the decoding of luma (x,y) with the chroma sample that covers it, at the component positions of the layout, and leaves every other element of the destination (row padding) unchanged. Odd widths and heights use the last ceil-halved chroma sample.", "quantifier": "all sizes including odd ones, all strides with padding, all subsamplings and layouts, all plane contents", "why_tests_cant": "Quantifies over every image size, stride and content; off-by-one errors hide at odd sizes and padded strides.", "anchors": ["src/yuv_to_rgba.rs: yuv_to_rgbx_impl, yuv420_to_rgb, yuv422_to_rgb, yuv444_to_rgb"]}
{"id": "C16", "title": "Every accepted destination is completely written", "statement": "Whenever a conversion returns Ok, every pixel of the image has been written, for every buffer layout accepted by validation (including a final row without trailing padding, and buffers longer than needed), and it never panics on an accepted layout.", "quantifier": "all accepted buffer lengths, strides, sizes", "why_tests_cant": "Requires relating the acceptance condition to the iteration over rows for all lengths.", "anchors": ["src/yuv_error.rs: check_rgba_destination, check_y8_channel", "src/yuv_to_rgba.rs: yuv_to_rgbx_impl"]}
{"id": "C17", "title": "8-bit bi-planar decode writes exactly the image", "statement": "Converting a valid NV12/NV21/NV16/NV61/NV24/NV42 image to RGB writes at every pixel the decoding of its luma and covering chroma pair and nothing else; U and V are taken from the positions prescribed by the format name.", "quantifier": "all sizes, strides, contents, orders, subsamplings, layouts, precisions", "why_tests_cant": "All sizes and strides including odd ones.", "anchors": ["src/yuv_nv_to_rgba.rs: yuv_nv12_to_rgbx_impl"]}
{"id": "C18", "title": "Bi-planar and planar decode agree", "statement": "If an interleaved chroma plane is the interleaving of U and V planes then decoding the bi-planar image equals decoding the planar image; decoding the same buffers as NV21 equals decoding NV12 with swapped chroma.", "quantifier": "all images, both orders, all subsamplings", "why_tests_cant": "A relation between two code paths for every image.", "anchors": ["src/yuv_nv_to_rgba.rs: yuv_nv12_to_rgbx_impl", "src/yuv_to_rgba.rs: yuv_to_rgbx_impl"]}
{"id": "C19", "title": "Channel layouts are permutations of each other", "statement": "Decoding to BGR, RGBA or BGRA gives the same colours as decoding to RGB, permuted to the layout, with alpha equal to the maximum in the four-channel layouts; encoding from any layout of the same colours gives the same YUV planes, and the alpha of the source has no influence.", "quantifier": "all images and layouts", "why_tests_cant": "A relation between all pairs of layouts over all images.", "anchors": ["src/yuv_support.rs: YuvSourceChannels", "src/yuv_to_rgba.rs", "src/rgba_to_yuv.rs"]}
{"id": "C20", "title": "8-bit planar encode writes exactly the image", "statement": "Encoding an RGB image to valid planar 4:4:4, 4:2:2 or 4:2:0 writes at every luma position the luma of that pixel and at every chroma position the chroma of the rounded average of the pixels it covers (1, 2 or 4, fewer at odd borders), and leaves all padding unchanged.", "quantifier": "all sizes including odd ones, all strides, all layouts, all contents", "why_tests_cant": "Quantifies over every size, stride and content.", "anchors": ["src/rgba_to_yuv.rs: rgbx_to_yuv8_impl"]}
{"id": "C21", "title": "Bi-planar and planar encode agree", "statement": "Encoding an RGB image to NV12/NV16/NV24 gives the same luma plane as the planar encoder and a chroma plane that is the interleaving of the planar encoder's U and V planes (swapped for NV21/NV61/NV42).", "quantifier": "all images, sizes, layouts, subsamplings, both orders", "why_tests_cant": "A relation between two code paths for every image; they differ only at odd borders.", "anchors": ["src/rgba_to_nv.rs: rgbx_to_nv_impl", "src/rgba_to_yuv.rs: rgbx_to_yuv8_impl"]}
{"id": "C22", "title": "Subsampled decode equals full-resolution decode of replicated chroma", "statement": "Decoding a 4:2:0 or 4:2:2 image equals decoding the 4:4:4 image whose chroma planes replicate each chroma sample over the pixels it covers.", "quantifier": "all images and sizes", "why_tests_cant": "A relation between code paths over every size, including odd borders.", "anchors": ["src/yuv_to_rgba.rs: yuv_to_rgbx_impl"]}
{"id": "C23", "title": "Padding and unrelated pixels never influence a pixel", "statement": "Two source images that agree on the samples belonging to a pixel produce the same output at that pixel whatever padding, strides, image size or other samples are; in particular tight and padded copies of an image convert identically.", "quantifier": "all pairs of images, all strides", "why_tests_cant": "A two-run (non-interference) property over all pairs of inputs.", "anchors": ["src/yuv_to_rgba.rs: yuv_to_rgbx_impl", "src/rgba_to_yuv.rs: rgbx_to_yuv8_impl"]}
{"id": "C24", "title": "Rows may be processed in any order or in parallel", "statement": "With the rayon feature the rows (or row pairs) are distributed over threads; for every schedule of the row tasks the destination ends up identical to sequential processing, because tasks write disjoint regions and read only the source.", "quantifier": "all permutations and interleavings of row tasks, all images", "why_tests_cant": "Schedules cannot be enumerated by tests.", "anchors": ["src/yuv_to_rgba.rs: par_chunks_exact_mut in yuv_to_rgbx_impl", "src/rgba_to_yuv.rs"]}
{"id": "C25", "title": "Result does not depend on how many pixels the SIMD prefix handled", "statement": "Each row is processed by an optional vector prefix that reports how many pixels it has completed, followed by a scalar tail. For every prefix length the vector code may report, if the prefix wrote the scalar result for those pixels the finished row is the same as without vector code: the tail neither skips nor repeats pixels.", "quantifier": "all prefix lengths reported by the vector code, all widths", "why_tests_cant": "Depends on every width modulo every vector length on every architecture; a test machine has one.", "anchors": ["src/internals.rs: ProcessedOffset", "src/yuv_to_rgba.rs: yuv_to_rgbx_impl", "src/yuy2_to_yuv.rs: yuy2_to_yuv_impl", "src/yuv_to_yuy2.rs: yuv_to_yuy2_impl"]}
{"id": "C26", "title": "Gray decode and encode write exactly the image", "statement": "yuv400 decode writes r=g=b = the expanded luma (identity in full range) and opaque alpha; encode writes the luma of every pixel; padding untouched; in full range encoding a gray image and decoding it returns the same image.", "quantifier": "all sizes, strides, contents, layouts", "why_tests_cant": "All sizes, strides and gray levels.", "anchors": ["src/y_to_rgb.rs: y_to_rgbx", "src/rgb_to_y.rs: rgbx_to_y", "src/y_with_alpha_to_rgb.rs: y_with_alpha_to_rgbx"]}
{"id": "C27", "title": "Alpha plane is carried through", "statement": "Decoding a planar image with an alpha plane writes at every pixel the alpha sample of that pixel; without premultiplication colours equal those of the alpha-less decoder, with it they are the rounded product with alpha.", "quantifier": "all images, both premultiply settings", "why_tests_cant": "All sizes, strides and contents.", "anchors": ["src/yuv_to_rgba_alpha.rs: yuv_with_alpha_to_rgbx"]}
{"id": "C28", "title": "High bit depth decode writes exactly the image", "statement": "Decoding 10/12/14/16-bit planar and bi-planar images to RGB of the same depth writes at every pixel the decoding of its samples (after undoing byte order and most-significant-bit packing) and nothing else, with all components in [0, 2^depth-1] and opaque alpha = 2^depth-1.", "quantifier": "all sizes, strides, contents, depths, endianness, packing", "why_tests_cant": "All sizes and depths.", "anchors": ["src/yuv_p16_rgba_p16.rs: yuv_p16_to_image_p16_ant", "src/yuv_nv_p16_to_rgb16.rs: yuv_nv_p16_to_image_impl"]}
{"id": "C29", "title": "10/12-bit decode to 8-bit saturates", "statement": "Decoding 10- or 12-bit YUV to 8-bit RGB yields for every sample triple the 8-bit rounding of the decoded colour saturated to [0,255]; brighter input never gives a darker component.", "quantifier": "all sample triples, all matrices, both ranges", "why_tests_cant": "Only the samples whose rounded value reaches 256 reveal a missing saturation.", "anchors": ["src/yuv_p10_rgba.rs: yuv_p16_to_image_ant", "src/yuv_nv_p10_to_rgb.rs", "src/yuv_p16_rgba_alpha.rs: yuv_p16_to_image_alpha_ant"]}
{"id": "C30", "title": "High bit depth encode writes exactly the image", "statement": "Encoding 10/12/14/16-bit RGB to planar YUV of the same depth writes at every luma position the luma of that very pixel and at every chroma position the chroma of the average of the covered pixels, without arithmetic overflow, and nothing else.", "quantifier": "all sizes, strides, contents, depths, subsamplings", "why_tests_cant": "All positions of all images; an indexing slip in one of the four luma computations of a 2x2 block shows only on images with vertical detail.", "anchors": ["src/rgb16_to_yuv_p16.rs: rgbx_to_yuv_ant", "src/rgb_to_nv_p16.rs: rgbx_to_yuv_bi_planar_10_impl"]}
{"id": "C31", "title": "Bi-planar and planar high bit depth decode agree", "statement": "Decoding P010/P210/P410-style images equals decoding the planar image with the same samples.", "quantifier": "all images", "why_tests_cant": "A relation between two code paths for every sample triple.", "anchors": ["src/yuv_nv_p16_to_rgb16.rs", "src/yuv_p16_rgba_p16.rs"]}
{"id": "C32", "title": "Byte order and packing only change representation", "statement": "Reading a big-endian plane equals reading the little-endian plane of byte-swapped samples; reading a most-significant-bits plane equals reading the least-significant-bits plane of samples shifted right; writing then reading a sample in any byte order and packing returns it.", "quantifier": "all 16-bit samples, depths 10/12/14/16", "why_tests_cant": "All samples.", "anchors": ["src/numerics.rs: to_ne", "src/rgb16_to_yuv_p16.rs: transform_integer"]}
{"id": "C33", "title": "GBR (identity) conversion is lossless in full range", "statement": "Full-range RGB to GBR planes and back is the identity on the colours of every pixel for every layout at every depth, and so is GBR planes to RGB and back on every sample; in limited range decoding an encoded component returns it within one code value (two at 14 bits), each code and level being the range compression and expansion rounded to nearest; a given alpha plane is copied; only image pixels are written.", "quantifier": "all images, layouts, strides, depths 8/10/12/14/16", "why_tests_cant": "All component values and sizes.", "anchors": ["src/to_identity.rs: rgbx_to_gbr_impl", "src/from_identity.rs: gbr_to_rgbx_impl", "src/from_identity_alpha.rs: gbr_to_rgbx_alpha_impl"]}
{"id": "C34", "title": "YCgCo conversion matches its definition", "statement": "Encoding RGB to YCgCo gives Y=(R+2G+B)/4, Cg=(2G-R-B)/4, Co=(R-B)/2 scaled to the chosen range within rounding, neutral chroma for gray, and decoding inverts it within a fixed number of code values.", "quantifier": "all RGB triples, both ranges, all subsamplings and sizes", "why_tests_cant": "All triples and sizes; scale mix-ups only affect one subsampling or the odd last column.", "anchors": ["src/rgb_to_ycgco.rs", "src/ycgco_to_rgb.rs: ycgco_ro_rgbx"]}
{"id": "C35", "title": "Packed 4:2:2 from and to planar is lossless", "statement": "Packing a planar 4:2:2 image into YUYV/UYVY/YVYU/VYUY and unpacking it again returns the same planes; each packed quad holds the two lumas and the chroma pair at the positions of the format.", "quantifier": "all sizes including odd widths, all four orders, all contents", "why_tests_cant": "All sizes; errors occur only at odd widths, odd heights or padded strides.", "anchors": ["src/yuv_to_yuy2.rs: yuv_to_yuy2_impl", "src/yuy2_to_yuv.rs: yuy2_to_yuv_impl", "src/yuv_support.rs: Yuy2Description"]}
{"id": "C36", "title": "Packed 4:2:2 decode writes exactly the image", "statement": "Decoding YUYV-family frames to RGB writes at every pixel the decoding of its luma with the chroma of its pair, and nothing else.", "quantifier": "all sizes including odd widths, all four orders, all layouts", "why_tests_cant": "All sizes.", "anchors": ["src/yuy2_to_rgb.rs: yuy2_to_rgb_impl"]}
{"id": "C37", "title": "Packed 4:2:2 to planar 4:2:0 covers the whole image", "statement": "Converting a packed 4:2:2 frame to planar 4:2:0 writes every luma sample of every row and every chroma sample of the ceil-halved grid.", "quantifier": "all sizes including odd heights and widths", "why_tests_cant": "Only odd sizes reveal unprocessed rows.", "anchors": ["src/yuy2_to_yuv.rs: yuy2_to_yuv_impl"]}
{"id": "C38", "title": "AR30/RA30 packing round-trips", "statement": "Packing three 10-bit components and a 2-bit alpha into any 30-bit layout and byte order and unpacking returns them, distinct components never overlap; converting 8-bit RGB to the 30-bit format and back returns the same 8-bit values.", "quantifier": "all component values, all four layouts, both byte orders", "why_tests_cant": "All 2^32 words / 2^24 colours.", "anchors": ["src/yuv_support.rs: Rgb30", "src/rgb_ar30.rs", "src/ar30_rgb.rs"]}
{"id": "C39", "title": "YUV to 30-bit RGB fits its fields", "statement": "Decoding 10/12-bit YUV to AR30/RA30 stores in every field the decoded component reduced to 10 bits; no component spills into another field.", "quantifier": "all samples, depths 10 and 12, all subsamplings", "why_tests_cant": "All samples; a field overflow depends on specific sample values and on the position in a pixel pair.", "anchors": ["src/yuv_p16_ar30.rs: yuv_p16_to_image_ar30", "src/yuv_nv_p10_to_ar30.rs"]}
{"id": "C40", "title": "Channel shuffles are lossless", "statement": "Every layout conversion moves each colour component to its place; converting from A to B and back returns the colours; missing alpha becomes opaque; swapping red and blue twice is the identity; only image pixels are written.", "quantifier": "all images and all ordered pairs of layouts", "why_tests_cant": "All sizes, strides and contents.", "anchors": ["src/shuffle.rs: shuffle_impl"]}
{"id": "C41", "title": "AYUV/VUYA decode", "statement": "Decoding packed AYUV/VUYA to RGB(A) writes the decoding of each pixel's own samples, copies alpha to four-channel targets, and premultiplies by alpha when asked.", "quantifier": "all images, both packings, both premultiply settings", "why_tests_cant": "All sizes and contents.", "anchors": ["src/ayuv_to_rgb.rs"]}
{"id": "C42", "title": "RemoteFX (RDP) conversion stays within its 16-bit format", "statement": "Encoding any RGB triple to RDP YUV fits in signed 16 bits without overflow and decoding returns every component within a small fixed error.", "quantifier": "all 2^24 RGB triples", "why_tests_cant": "Worst case over the cube.", "anchors": ["src/rdp.rs: to_rdp_yuv, rdp_yuv_to_rgb"]}
{"id": "C43", "title": "Gray 16-bit entry points reject bad buffers", "statement": "Like all other converters, the high-bit-depth gray decoders return an error (and do not panic or report success) when the source plane or destination is too small for the declared dimensions.", "quantifier": "all dimension, stride and length combinations", "why_tests_cant": "All invalid geometries.", "anchors": ["src/y_p16_to_rgb16.rs: yuv400_p16_to_rgbx_impl", "src/y_p16_with_alpha_to_rgb16.rs"]}
{"id": "C44", "title": "Sharp YUV luma equals plain luma and chroma stays in range", "statement": "The gamma-corrected (sharp) encoder writes for every pixel the same luma as the plain encoder capped to the nominal range, and every chroma sample lies in the nominal range, whatever the gamma tables; constant-colour regions get the chroma of the table-mapped colour.", "quantifier": "all images, sizes, matrices, gamma tables", "why_tests_cant": "All images.", "anchors": ["src/sharpyuv/sharp_rgba_to_yuv.rs: sharpen_row420, sharpen_row422, rgbx_to_sharp_yuv"]}
{"id": "C45", "title": "Conversion precision mode changes output by at most a bounded amount", "statement": "Selecting another conversion mode (Fast, Balanced, Professional) changes any encoded or decoded component by no more than a fixed number of code values.", "quantifier": "all sample triples, all named matrices, both ranges", "why_tests_cant": "Worst case over the sample cube for pairs of configurations.", "anchors": ["src/yuv_support.rs: YuvConversionMode", "src/rgba_to_yuv.rs: rgbx_to_yuv8", "src/yuv_nv_to_rgba.rs: yuv_nv12_to_rgbx"]}
{"id": "C46", "title": "Mirroring and rotation", "statement": "Mirroring twice or rotating by 180 degrees twice returns the image; rotating by 90 and then 270 returns the image; size errors are reported as image-size errors.", "quantifier": "all images and planes", "why_tests_cant": "All sizes.", "anchors": ["src/mirroring.rs", "src/geometry.rs"]}
{"id": "C47", "title": "Half-float images", "statement": "Decoding a 10-, 12- or 14-bit image (YUV or GBR, with or without alpha) to half floats stores, for every component, the half float of the integer level the decoder of that depth yields: the level and 1/(2^d-1) rounded to half precision and multiplied with one rounding. 0 becomes 0.0, the largest level exactly 1.0, the mapping is monotone, stays in [0,1] and has a relative error of at most 2^-10. Converting integer images to half floats (any depth up to 16) is monotone, maps the ends to 0.0 and 1.0 and has a relative error of about 2^-11; converting back rounds to nearest, maps negative numbers and NaN to 0, saturates at the depth, and up to 10 bits returns the original image.", "quantifier": "every image, size, stride, content, sampling, byte order, range, matrix and channel order; every level and every half-float pattern", "why_tests_cant": "A level passes through three roundings in two floating-point formats; a test sees a few levels, and misses that 65520 is the first 16-bit level that rounds to infinity.", "anchors": ["src/yuv_p16_rgba_f16.rs", "src/yuva_p16_rgba_f16.rs", "src/from_identity_f16.rs", "src/from_identity_alpha_f16.rs", "src/f16_converter.rs"]}
{"id": "C48", "title": "High bit depth 4:4:4 round trip", "statement": "Encoding an RGB(A) image of depth 10, 12, 14 or 16 to 4:4:4 YUV of the same depth and decoding it with the same matrix, range, byte order and packing returns every pixel with red and blue within 2, 3, 6, 20 code values and green within 1, 2, 5, 16 (for the four depths).", "quantifier": "all sizes, strides, contents, byte orders, packings, channel orders, all matrices and ranges except 16-bit full-range BT.601 (which overflows)", "why_tests_cant": "2^30 to 2^48 colours per setting.", "anchors": ["src/rgb16_to_yuv_p16.rs: rgbx_to_yuv_ant", "src/yuv_p16_rgba16.rs"]}
{"id": "C49", "title": "Named matrices carry the published weights", "statement": "For every matrix name the luma weights used to encode, and the red and blue chroma gains used to decode, are the roundings of the K_R and K_B that H.273 publishes under that name.", "quantifier": "all matrix names, ranges, depths and fixed-point precisions", "why_tests_cant": "Each name multiplies with depth, range and precision, and a test derived from the code's own constants repeats them.", "anchors": ["src/yuv_support.rs: YuvStandardMatrix::get_kr_kb", "src/yuv_support.rs: search_forward_transform, search_inverse_transform"]}
{"id": "C50", "title": "High bit depth gray decode writes exactly the image", "statement": "The 10, 12, 14 and 16-bit gray decoders write r=g=b = the expanded luma (identity in full range) into every pixel, alpha = the largest code value or the alpha plane's sample, and nothing else.", "quantifier": "all sizes, strides, contents with samples inside the depth, channel orders, ranges, matrices", "why_tests_cant": "All sizes, strides and gray levels.", "anchors": ["src/y_p16_to_rgb16.rs: yuv400_p16_to_rgbx_impl", "src/y_p16_with_alpha_to_rgb16.rs"]}
{"id": "C51", "title": "Alpha plane of 10- to 16-bit images", "statement": "Decoding a 10- to 16-bit planar image with an alpha plane writes at every pixel that pixel's alpha sample (scaled to 8 bits for 8-bit targets) beside the colour the alpha-less formula gives, for every byte order and row stride.", "quantifier": "all images, samplings, depths, byte orders, strides and contents", "why_tests_cant": "All sizes, strides and sample words.", "anchors": ["src/yuv_p16_rgba16_alpha.rs: yuv_p16_to_image_alpha_ant", "src/yuv_p16_rgba_alpha.rs: yuv_p16_to_image_alpha_ant"]}
{"id": "C52", "title": "Every public function converts what its name says", "statement": "Each public conversion function reads the layout named before `to` and writes the layout named after `to`: chroma subsampling, bit depth, channel order, chroma order, packing, byte order, alpha plane and the 30-bit byte order requested by the caller are the ones of the name.", "quantifier": "every public conversion function the crate exports (581 functions generated by about forty macros)", "why_tests_cant": "a unit test covers the functions somebody thought of; the claim is about the whole export list, and a wrong constant in one macro invocation type-checks and returns a plausible image", "anchors": ["src/lib.rs: pub use", "src/yuv_p10_rgba.rs: build_cnv!", "src/yuv_p16_rgba16_alpha.rs: build_cnv!", "src/rgb_to_nv_p16.rs: d_cn!", "src/rgb16_to_yuv_p16.rs: rgb_to_yuv!", "src/yuv_p16_ar30.rs: build_cnv!"]}
{"id": "C53", "title": "Decoding agrees between processors", "statement": "Decoding the same 8-bit planar image on x86 processors with AVX2, with SSE4.1 only, or with neither gives the same picture up to rounding: red and blue of a pixel differ by at most two code values and green by at most three, and each stays within about three code values of the ITU-R result.", "quantifier": "all images, samplings, channel orders, matrices, ranges, sizes and strides; any two of the processor classes", "why_tests_cant": "A test runs on one processor and on sample values somebody chose; the claim ranges over all 2^24 sample triples, every position in a row and three implementations.", "anchors": ["src/yuv_to_rgba.rs: RowHandler, RowHandler420, yuv_to_rgbx", "src/avx2/yuv_to_rgba.rs", "src/avx2/yuv_to_rgba422.rs", "src/avx2/yuv_to_rgba420.rs", "src/sse/yuv_to_rgba.rs", "src/sse/yuv_to_rgba422.rs", "src/sse/yuv_to_rgba420.rs"]}
{"id": "C54", "title": "Vector decoding stays inside its buffers", "statement": "On every class of x86 processor, decoding a valid 8-bit planar image reads only inside the planes and writes exactly the bytes of the image's pixels, and always terminates, for every width, stride and amount of row padding.", "quantifier": "all images, sizes, strides, paddings, samplings and channel orders; all processor classes", "why_tests_cant": "An out-of-bounds vector load or store is undefined behaviour that shows only for particular widths, paddings and allocations.", "anchors": ["src/yuv_to_rgba.rs: RowHandler, RowHandler420, yuv_to_rgbx", "src/avx2/yuv_to_rgba.rs", "src/avx2/yuv_to_rgba422.rs", "src/avx2/yuv_to_rgba420.rs", "src/sse/yuv_to_rgba.rs", "src/sse/yuv_to_rgba422.rs", "src/sse/yuv_to_rgba420.rs"]}
{"id": "C55", "title": "A decoded pixel depends only on its own samples", "statement": "Two pixels with equal luma and chroma samples decode to equal colours wherever they are: position in the row, image size, subsampling, strides, padding and previous destination contents do not matter.", "quantifier": "all pairs of images and of pixels in them; each processor class", "why_tests_cant": "The vector code treats blocks, half blocks and the rest of a row by different code, so a difference shows only for particular widths, positions and sample values.", "anchors": ["src/yuv_to_rgba.rs: RowHandler, RowHandler420, yuv_to_rgbx", "src/avx2/yuv_to_rgba.rs", "src/avx2/yuv_to_rgba422.rs", "src/avx2/yuv_to_rgba420.rs", "src/sse/yuv_to_rgba.rs", "src/sse/yuv_to_rgba422.rs", "src/sse/yuv_to_rgba420.rs"]}
{"id": "C56", "title": "Vector semi-planar decoding stays inside its buffers", "statement": "On every class of x86 processor, decoding a valid 8-bit semi-planar image (NV12, NV16, NV24 or their swapped orders) reads only inside the planes and writes exactly the bytes of the image's pixels, and always terminates, for every width, stride and amount of row padding; every written byte is determined by the samples and the column.", "quantifier": "all images, sizes, strides, paddings, samplings, chroma orders and channel orders; all processor classes", "why_tests_cant": "An out-of-bounds vector load or store is undefined behaviour that shows only for particular widths, paddings and allocations.", "anchors": ["src/yuv_nv_to_rgba.rs: RowHandlerBalanced, RowHandler420, yuv_nv12_to_rgbx", "src/avx2/yuv_nv_to_rgba.rs", "src/avx2/yuv_nv_to_rgba422.rs", "src/avx2/yuv_nv_to_rgba420.rs", "src/sse/yuv_nv_to_rgba.rs", "src/sse/yuv_nv_to_rgba422.rs", "src/sse/yuv_nv_to_rgba420.rs"]}
{"id": "C57", "title": "On one machine NV12 and planar images decode alike", "statement": "On any one x86 machine, a semi-planar image and a planar image holding the same samples decode to identical bytes, and reading an image with swapped chroma pairs in the other order changes nothing.", "quantifier": "all pairs of images with equal samples; all samplings, channel orders, matrices, ranges, sizes and strides; each processor class", "why_tests_cant": "The two layouts run different vector kernels; equality must hold for all sample values and at every column.", "anchors": ["src/yuv_nv_to_rgba.rs: RowHandlerBalanced, RowHandler420, yuv_nv12_to_rgbx", "src/avx2/yuv_nv_to_rgba.rs", "src/avx2/yuv_nv_to_rgba422.rs", "src/avx2/yuv_nv_to_rgba420.rs", "src/sse/yuv_nv_to_rgba.rs", "src/sse/yuv_nv_to_rgba422.rs", "src/sse/yuv_nv_to_rgba420.rs", "src/yuv_to_rgba.rs: yuv_to_rgbx"]}
{"id": "C58", "title": "Semi-planar decoding agrees between processors", "statement": "Decoding the same 8-bit semi-planar image on x86 processors with AVX2, with SSE4.1 only, or with neither gives the same picture up to rounding: red and blue of a pixel differ by at most two code values and green by at most three.", "quantifier": "all images, samplings, chroma orders, channel orders, matrices, ranges, sizes and strides; any two of the processor classes", "why_tests_cant": "A test runs on one processor and on sample values somebody chose.", "anchors": ["src/yuv_nv_to_rgba.rs: RowHandlerBalanced, RowHandler420, yuv_nv12_to_rgbx", "src/avx2/yuv_nv_to_rgba.rs", "src/avx2/yuv_nv_to_rgba422.rs", "src/avx2/yuv_nv_to_rgba420.rs", "src/sse/yuv_nv_to_rgba.rs", "src/sse/yuv_nv_to_rgba422.rs", "src/sse/yuv_nv_to_rgba420.rs"]}
{"id": "C59", "title": "Vector encoding stays inside its buffers", "statement": "On every class of x86 processor, encoding a valid 8-bit image to a planar format reads only inside the source, writes exactly the samples of the three planes and nothing else, always terminates, and what it writes depends only on the pixels: not on source row padding or previous contents of the planes.", "quantifier": "all images, sizes, strides, paddings, samplings, channel orders, matrices and ranges; all processor classes", "why_tests_cant": "An out-of-bounds vector load or store is undefined behaviour that shows only for particular widths, paddings and allocations.", "anchors": ["src/rgba_to_yuv.rs: RgbEncoder, RgbEncoder420, rgbx_to_yuv8_impl", "src/avx2/rgba_to_yuv.rs", "src/avx2/rgba_to_yuv420.rs", "src/sse/rgba_to_yuv.rs", "src/sse/rgba_to_yuv420.rs"]}
{"id": "C60", "title": "Encoding agrees between processors", "statement": "Encoding the same 8-bit image on x86 processors with AVX2 and with SSE4.1 only gives identical bytes; compared with processors that have neither, no sample differs by more than one; and on all of them luma is within 1.36 and chroma within 1.4 code values (1.18 with subsampling) of the exact ITU-R value of the exact mean of the covered pixels.", "quantifier": "all images, sizes, strides, paddings, samplings, channel orders, matrices and ranges; all processor classes", "why_tests_cant": "A test runs on one processor and on pixel values somebody chose.", "anchors": ["src/rgba_to_yuv.rs: RgbEncoder, RgbEncoder420, rgbx_to_yuv8_impl", "src/avx2/rgba_to_yuv.rs", "src/avx2/rgba_to_yuv420.rs", "src/sse/rgba_to_yuv.rs", "src/sse/rgba_to_yuv420.rs"]}
{"id": "C61", "title": "Vector encoding keeps to the nominal ranges", "statement": "On every class of x86 processor limited-range luma lies in 16..235 and chroma in 16..240.", "quantifier": "all images, sizes, strides, paddings, samplings, channel orders, matrices and ranges; all processor classes", "why_tests_cant": "The extremes are reached only by particular colours for particular matrices.", "anchors": ["src/rgba_to_yuv.rs: RgbEncoder, RgbEncoder420, rgbx_to_yuv8_impl", "src/avx2/rgba_to_yuv.rs", "src/avx2/rgba_to_yuv420.rs", "src/sse/rgba_to_yuv.rs", "src/sse/rgba_to_yuv420.rs"]}
{"id": "C62", "title": "Vector encoding keeps gray neutral and luma monotone", "statement": "On every class of x86 processor chroma samples that cover only gray pixels are exactly neutral (128), luma never decreases when no component decreases, black gets the luma offset and white offset plus range.", "quantifier": "all images, sizes, strides, paddings, samplings, channel orders, matrices and ranges; all processor classes; all pairs of pixels", "why_tests_cant": "Neutrality and monotonicity are relations between all pixel values and positions.", "anchors": ["src/rgba_to_yuv.rs: RgbEncoder, RgbEncoder420, rgbx_to_yuv8_impl", "src/avx2/rgba_to_yuv.rs", "src/avx2/rgba_to_yuv420.rs", "src/sse/rgba_to_yuv.rs", "src/sse/rgba_to_yuv420.rs"]}
{"id": "C63", "title": "Round trip on vector units", "statement": "Encoding an 8-bit image to 4:4:4 on one x86 processor and decoding it on another, with the same matrix and range, returns every pixel with red and green within 6 and blue within 7 levels.", "quantifier": "all images, sizes, strides, channel orders, matrices and ranges; all pairs of processor classes", "why_tests_cant": "The error depends on the pixel value; there are 2^24 of them per matrix, range and pair of processors.", "anchors": ["src/rgba_to_yuv.rs: RgbEncoder, RgbEncoder420, rgbx_to_yuv8_impl", "src/avx2/rgba_to_yuv.rs", "src/avx2/rgba_to_yuv420.rs", "src/sse/rgba_to_yuv.rs", "src/sse/rgba_to_yuv420.rs", "src/yuv_to_rgba.rs: yuv_to_rgbx"]}
{"id": "C64", "title": "Semi-planar encoding on vector units is memory safe and exact", "statement": "On x86 processors with AVX2, with SSE4.1 only, or with neither, encoding an RGB(A) buffer into NV12, NV21, NV16, NV61, NV24 or NV42 succeeds without reading or writing outside the buffers, writes exactly the luma samples and chroma pairs of the image, computes every sample from the pixels it covers only, and AVX2 and SSE4.1 write identical bytes.", "quantifier": "all images, sizes, strides, paddings, samplings, chroma orders, channel orders, matrices and ranges; all processor classes", "why_tests_cant": "Wide loads and stores meet every combination of width, padding and slice length; tests run on one processor.", "anchors": ["src/rgba_to_nv.rs: SemiPlanar420Encoder, SemiPlanarEncoder, rgbx_to_nv", "src/avx2/rgb_to_nv.rs", "src/avx2/rgb_to_nv420.rs", "src/sse/rgb_to_nv.rs", "src/sse/rgb_to_nv420.rs"]}
{"id": "C65", "title": "Planar and semi-planar encoders agree on vector units", "statement": "On x86 processors with AVX2 or SSE4.1 the planar and the semi-planar encoder store the same luma and chroma samples for every size, odd widths included; on every processor NV21 is NV12 with every pair exchanged.", "quantifier": "all images, sizes, strides, paddings, samplings, chroma orders, channel orders, matrices and ranges; all processor classes", "why_tests_cant": "The equality must hold for every pixel content and every position relative to the vector width.", "anchors": ["src/rgba_to_nv.rs: SemiPlanar420Encoder, SemiPlanarEncoder, rgbx_to_nv", "src/avx2/rgb_to_nv.rs", "src/avx2/rgb_to_nv420.rs", "src/sse/rgb_to_nv.rs", "src/sse/rgb_to_nv420.rs", "src/rgba_to_yuv.rs"]}
{"id": "C66", "title": "Semi-planar encoding agrees between processors", "statement": "No sample of a semi-planar image encoded on two x86 processors of different classes differs by more than one; luma is within 1.36 and chroma within 1.4 code values (1.18 with subsampling) of the exact ITU-R value of the mean of the covered pixels; pairs covering gray pixels are exactly neutral.", "quantifier": "all images, sizes, strides, paddings, samplings, chroma orders, channel orders, matrices and ranges; all processor classes", "why_tests_cant": "A test runs on one processor and on pixel values somebody chose.", "anchors": ["src/rgba_to_nv.rs: SemiPlanar420Encoder, SemiPlanarEncoder, rgbx_to_nv", "src/avx2/rgb_to_nv.rs", "src/avx2/rgb_to_nv420.rs", "src/sse/rgb_to_nv.rs", "src/sse/rgb_to_nv420.rs"]}
{"id": "C67", "title": "Semi-planar vector encoding keeps to the nominal ranges and round trips", "statement": "On every class of x86 processor limited-range luma lies in 16..235 and chroma in 16..240, and encoding to NV24 or NV42 on one processor and decoding on another returns red and green within 6 and blue within 7 levels.", "quantifier": "all images, sizes, strides, paddings, samplings, chroma orders, channel orders, matrices and ranges; all processor classes; all pairs of processor classes for the round trip", "why_tests_cant": "Extremes are reached by particular colours only; there are 2^24 pixel values per matrix, range and pair of processors.", "anchors": ["src/rgba_to_nv.rs: SemiPlanar420Encoder, SemiPlanarEncoder, rgbx_to_nv", "src/avx2/rgb_to_nv.rs", "src/avx2/rgb_to_nv420.rs", "src/sse/rgb_to_nv.rs", "src/sse/rgb_to_nv420.rs", "src/yuv_nv_to_rgba.rs"]}
{"id": "C68", "title": "Decoding with an alpha plane on x86 processors", "statement": "On every class of x86 processor decoding an 8-bit planar image with an alpha plane never reads or writes outside its buffers, writes exactly the pixels of the image and stores every alpha sample unchanged; straight colours agree between processors within 2 levels (green 3) when luma is not below black, and on AVX2 are those of the decoder without alpha.", "quantifier": "all images with an alpha plane, sizes, strides, paddings, samplings, RGBA and BGRA, matrices and ranges; all processor classes", "why_tests_cant": "Buffer overruns of vector loops depend on widths, strides and slice ends, and the result must be right at every position relative to the vector width.", "anchors": ["src/yuv_to_rgba_alpha.rs: yuv_with_alpha_to_rgbx, RgbDecoder", "src/avx2/yuv_to_rgba_alpha.rs", "src/sse/yuv_to_rgba_alpha.rs", "src/avx2/avx2_utils.rs: avx2_div_by255", "src/sse/utils.rs: sse_div_by255"]}
{"id": "C69", "title": "Premultiplied decoding on x86 processors", "statement": "On every class of x86 processor every premultiplied component is the straight component times alpha over 255 within one level, and fully transparent pixels are black.", "quantifier": "all images with an alpha plane, sizes, strides, paddings, samplings, RGBA and BGRA, matrices and ranges; all processor classes", "why_tests_cant": "The 16-bit arithmetic goes wrong for particular colour and alpha pairs and positions only; a test runs on one processor.", "anchors": ["src/yuv_to_rgba_alpha.rs: yuv_with_alpha_to_rgbx, RgbDecoder", "src/avx2/yuv_to_rgba_alpha.rs", "src/sse/yuv_to_rgba_alpha.rs", "src/avx2/avx2_utils.rs: avx2_div_by255", "src/sse/utils.rs: sse_div_by255"]}
{"id": "C70", "title": "Premultiplied pixels are valid", "statement": "On every class of x86 processor no premultiplied colour component exceeds the pixel's alpha, and premultiplying an opaque pixel leaves it unchanged.", "quantifier": "all images with an alpha plane, sizes, strides, paddings, samplings, RGBA and BGRA, matrices and ranges; all processor classes", "why_tests_cant": "There are 2^32 combinations of samples and alpha per matrix and range, and the arithmetic differs by column.", "anchors": ["src/yuv_to_rgba_alpha.rs: yuv_with_alpha_to_rgbx, RgbDecoder", "src/avx2/yuv_to_rgba_alpha.rs", "src/sse/yuv_to_rgba_alpha.rs", "src/avx2/avx2_utils.rs: avx2_div_by255", "src/sse/utils.rs: sse_div_by255"]}
{"id": "C71", "title": "Grey decoding on x86 processors", "statement": "On every class of x86 processor decoding an 8-bit grey image never reads or writes outside its buffers, writes exactly the pixels of the image, all grey and opaque; levels agree between processors within one and are within 4/3 of the exact expansion of the sample; black and white are exact and a brighter sample never gives a darker pixel.", "quantifier": "all grey images, sizes, strides, paddings, pixel layouts, matrices and ranges; all processor classes", "why_tests_cant": "The vector code handles a pixel differently depending on its position in the row and the row's width; a test runs on one processor.", "anchors": ["src/y_to_rgb.rs: y_to_rgbx, make_limited_converter", "src/avx2/y_to_rgba.rs", "src/sse/y_to_rgba.rs"]}
{"id": "C72", "title": "Grey decoding with alpha on x86 processors", "statement": "On every class of x86 processor decoding an 8-bit grey image with an alpha plane never reads or writes outside its buffers, writes exactly the pixels of the image, stores alpha unchanged, and gives levels that agree between processors within one.", "quantifier": "all grey images with alpha, sizes, strides, paddings, RGBA and BGRA, matrices and ranges; all processor classes", "why_tests_cant": "The row is split between two vector kernels and the scalar loop at positions that depend on the width.", "anchors": ["src/y_with_alpha_to_rgb.rs: WideRowProcessor", "src/avx2/y_to_rgba_alpha.rs", "src/sse/y_to_rgba_alpha.rs"]}
{"id": "C73", "title": "Grey encoding on x86 processors", "statement": "On every class of x86 processor encoding RGB to an 8-bit grey image never reads or writes outside its buffers and writes exactly the samples of the image; each is within 1.36 of the exact luma, agrees between processors within one, equals the luma plane of the colour encoder, and full-range grey survives a round trip within one.", "quantifier": "all RGB images, sizes, strides, paddings, pixel layouts, matrices and ranges; all processor classes", "why_tests_cant": "Whether a column is right depends on its position relative to the vector width; a test with a few widths, or on another processor, does not meet the wrong ones.", "anchors": ["src/rgb_to_y.rs: rgbx_to_y", "src/avx2/rgb_to_y.rs", "src/sse/rgb_to_y.rs", "src/avx2/avx2_utils.rs: _mm256_load_deinterleave_half_rgb_for_yuv"]}
{"id": "C74", "title": "Channel shuffles on x86 processors", "statement": "On every class of x86 processor the channel shuffles never read or write outside their buffers and give, at every width, the bytes of the portable code: each pixel keeps its colours and alpha (255 when the source has none) in the new order, nothing else is written, and there and back returns the image even when the two conversions run on different processors.", "quantifier": "all images, sizes, strides, paddings and pairs of different layouts; all processor classes", "why_tests_cant": "The vector code handles rows in blocks of 32, 16, 8 or 2 pixels and the rest through stack buffers; a misplaced byte may appear only in one block position at one width.", "anchors": ["src/shuffle.rs: make_converter, shuffle_impl", "src/avx2/shuffle.rs", "src/sse/shuffle.rs", "src/avx2/avx2_utils.rs: _mm256_load_deinterleave_rgb", "src/sse/utils.rs: _mm_load_deinterleave_rgbx, _mm_load_deinterleave_half_rgbx"]}
{"id": "C75", "title": "GBR decoding does not depend on the processor", "statement": "Decoding an 8-bit GBR (identity matrix) image on a processor with AVX2 or with SSE4.1 writes, for every width and stride, exactly the pixels of the image (red from V, green from Y, blue from U, opaque alpha) and nothing else. In full range the bytes are those of the processor without vector extensions; in limited range AVX2 and SSE4.1 agree byte for byte, differ from the scalar code by at most one per component, stay within 4/3 of the ITU expansion, and RGB to GBR and back loses at most one.", "quantifier": "every processor class, channel layout, image, stride and range", "why_tests_cant": "the vector kernels, their partial last block and the scalar code round differently; a test compares a few widths on the processor at hand", "anchors": ["src/avx2/gbr_to_rgb.rs", "src/sse/gbr_to_rgb.rs", "src/from_identity.rs: WideRowGbrProcessor, WideRowGbrLimitedProcessor, gbr_to_rgbx_impl"]}
{"id": "C76", "title": "Packing 4:2:2/4:2:0 into YUYV and friends on x86 is right on every processor", "statement": "On an x86 machine with AVX2, with SSE4.1 only, or with neither, packing a planar 8-bit 4:2:2 or 4:2:0 frame into YUYV/UYVY/YVYU/VYUY succeeds and writes, for every pair of columns, exactly its two luma samples and the chroma of the pair in the order of the format; bytes outside the frame are untouched; all processors write the same bytes.", "quantifier": "every processor kind, all four byte orders, both samplings, every frame of any size and stride, all sample values and prior destination contents", "why_tests_cant": "the kernels shuffle 64, 32 and 16 columns at a time with lane-crossing moves; a misplaced byte shows only at certain widths and positions; tests use one width on one machine", "anchors": ["src/yuv_to_yuy2.rs: yuv_to_yuy2_impl", "src/avx2/yuv_to_yuv2.rs: yuv_to_yuy2_avx2_row_impl", "src/sse/yuv_to_yuy2.rs: yuv_to_yuy2_sse_impl", "src/avx2/avx2_utils.rs: avx2_deinterleave_rgba, _mm256_interleave_rgba"]}
{"id": "C77", "title": "Packing 4:4:4 into YUYV and friends on x86", "statement": "On every x86 processor, packing a planar 8-bit 4:4:4 frame writes, for every pair of columns, its two luma samples and the mean (halves up) of its two Cb and its two Cr samples.", "quantifier": "every processor kind, all four byte orders, every frame of any size and stride, all sample values and prior destination contents", "why_tests_cant": "which pairs go through which vector step depends on the width; the scalar tail skips a number of pairs computed from a number of columns; a test with one small frame takes the scalar path only", "anchors": ["src/yuv_to_yuy2.rs: yuv_to_yuy2_impl", "src/avx2/yuv_to_yuv2.rs: yuv_to_yuy2_avx2_row_impl", "src/avx2/avx2_utils.rs: _mm256_havg_epu8, avx_pairwise_avg_epi16", "src/sse/yuv_to_yuy2.rs: yuv_to_yuy2_sse_impl", "src/sse/utils.rs: _mm_havg_epu8"]}
{"id": "C78", "title": "Unpacking packed 4:2:2 frames on every x86 processor: what is written, and what is not", "statement": "Converting a packed YUYV/UYVY/YVYU/VYUY frame to planar 4:2:2, 4:4:4 or 4:2:0 should give the same planes whether the processor has AVX2, SSE4.1 or neither, and every luma and chroma sample of the image should be written with the value of its pixel or pair. The frame each build writes is determined byte for byte; it is the right one in 4:2:2 and 4:4:4 for widths up to 16 and widths one more than a multiple of 16, and only those.", "quantifier": "every packed order, every processor kind, every size, stride and content of the source and of the destination", "why_tests_cant": "Vector code handles blocks of 64, 32 and 16 columns and the scalar code starts from a position counted in different units, so only a statement over all widths shows which columns survive; a handful of test sizes shows neither the good nor the bad set of widths.", "anchors": ["src/yuy2_to_yuv.rs: yuy2_to_yuv_impl, process_wide_row", "src/avx2/yuy2_to_yuv.rs: yuy2_to_yuv_avx", "src/sse/yuy2_to_yuv.rs: yuy2_to_yuv_sse"]}
{"id": "C79", "title": "Decoding packed 4:2:2 to RGB gives the same picture on every x86 processor", "statement": "For every packed 4:2:2 frame of any of the four byte orders and every destination of a matching size, decoding to RGB, BGR, RGBA or BGRA with the AVX2 code, with the SSE4.1 code or without vector code succeeds, writes exactly the width x height pixels, and each pixel is the fixed-point decoding of its luma with the chroma of its pair, whatever the processor and whatever column the pixel is in; each component is within 4.5 steps of the exact decoding.", "quantifier": "all widths and heights, all contents, all four byte orders, all four destination layouts, both ranges, all matrices, the three classes of x86 processor", "why_tests_cant": "A unit test runs on one processor and on a few widths; the vector code and the scalar code split a row at a column that depends on the width and the processor, and the difference only shows for particular sample values.", "anchors": ["src/avx2/yuy2_to_rgb.rs: yuy2_to_rgb_avx_impl", "src/sse/yuy2_to_rgb.rs: yuy2_to_rgb_sse_impl", "src/yuy2_to_rgb.rs: yuy2_to_rgb_impl"]}
{"id": "C80", "title": "Packed 4:4:4 decoding on x86 processors", "statement": "On every x86 processor (AVX2, SSE4.1 only, none) decoding a packed 4:4:4 image (AYUV, VUYA) to RGB or RGBA succeeds on every well-formed image and destination, reads and writes only inside its buffers, writes exactly the pixels of the image, stores the packed alpha in the fourth component, and, without premultiplication and for luma not below black, gives colours within 2 (red, blue) or 3 (green) of those of any other processor.", "quantifier": "every processor class, packing, channel order, range, matrix, width, height, strides, padding and buffer content", "why_tests_cant": "The vector code is chosen at run time and has separate code for whole 32-pixel steps and for the end of the row; tests run on one machine and on few widths and samples.", "anchors": ["src/ayuv_to_rgb.rs: ayuv_to_rgb, ayuv_to_rgba, vyua_to_rgb, vyua_to_rgba, make_executor", "src/avx2/ayuv_to_rgba.rs: avx2_ayuv_to_rgba"]}
{"id": "C81", "title": "Premultiplied packed 4:4:4 decoding on x86 processors", "statement": "Decoding packed 4:4:4 with premultiplication gives on every x86 processor components within one of the straight component times alpha over 255, never above alpha, zero for transparent pixels, and the straight components for opaque pixels.", "quantifier": "every processor class, packing, channel order, range, matrix, width, height, strides and buffer content", "why_tests_cant": "The two pieces of vector code multiply different quantities (saturated colours or raw sums); the failing samples are those out of gamut, which tests with ordinary pictures do not contain.", "anchors": ["src/ayuv_to_rgb.rs: ayuv_to_rgb, ayuv_to_rgba, vyua_to_rgb, vyua_to_rgba, make_executor", "src/avx2/ayuv_to_rgba.rs: avx2_ayuv_to_rgba"]}
{"id": "C82", "title": "RemoteFX encoding gives the same planes on every x86 processor", "statement": "For every size, every stride, each of the six pixel layouts and every content, encoding to RemoteFX planes on a processor with AVX2 ends normally, reads and writes inside the given slices, stores exactly the RemoteFX luma, Cb and Cr of every pixel (the same 16-bit values as the code for processors without vector instructions) and writes nothing else; decoding the planes returns every colour component or one less, whichever processor encoded.", "quantifier": "every pixel layout, every image size and stride the size checks accept, every content, every x86 processor class", "why_tests_cant": "The kernel works in blocks of 32 pixels with 16- and 32-bit elements and a tail through buffers; tests run on one processor with a few widths.", "anchors": ["src/rdp.rs: to_rdp_yuv, RgbEncoder", "src/avx2/rdp_to_yuv.rs: rdp_avx2_rgba_to_yuv_impl", "src/avx2/avx2_utils.rs: _mm256_double_affine_uv_dot, _mm256_double_affine_uv_s_dot"]}
{"id": "C83", "title": "Planar 10- to 16-bit decoding on x86 processors is safe and exact", "statement": "For every 10-, 12-, 14- or 16-bit planar image in any byte order and packing, whatever the 16-bit words stored in it, decoding to RGB of the same depth on a processor with AVX2, with SSE4.1 or without either ends normally, reads and writes inside the given slices, writes exactly the pixels of the image and nothing of the padding. Every pixel depends only on the samples shown at it, not on its column, the image size or the padding. Byte order and packing only represent the samples. At 10 bits AVX2 and SSE4.1 write the same buffer.", "quantifier": "every processor class, depth, byte order, packing, sampling, layout, range, matrix, size, stride and content", "why_tests_cant": "The kernels have blocks of 16, 32 and 8 pixels, tails through buffers and different chroma loads per sampling; tests run on one processor at a few sizes.", "anchors": ["src/yuv_p16_rgba_p16.rs: yuv_p16_to_image_p16_ant, i010_to_rgb10, i210_to_rgba10, i412_to_rgb12", "src/avx2/yuv_p16_to_rgb16.rs: avx_yuv_p16_to_rgba_row", "src/avx2/yuv_p16_to_rgb_d16.rs: avx_yuv_p16_to_rgba_d16_row", "src/sse/yuv_p16_to_rgb16.rs: sse_yuv_p16_to_rgba_row"]}
{"id": "C84", "title": "Planar 10- to 16-bit decoding agrees on all x86 processors", "statement": "Two processors of whatever class decode the same 10- to 16-bit planar image to pixels at most two code values apart in every component, every component is within 5/2 + 2^d/2^13 code values of the exact ITU-R value saturated to the depth, and at 12, 14 and 16 bits AVX2 gives exactly what a processor without vector instructions gives.", "quantifier": "every two processor classes, depth, byte order, packing, sampling, layout, range, matrix, size, stride and content", "why_tests_cant": "A test runs on one processor; the failing samples (luma below black, words beyond the depth) do not occur in ordinary pictures.", "anchors": ["src/yuv_p16_rgba_p16.rs: yuv_p16_to_image_p16_ant, i010_to_rgb10, i210_to_rgba10, i412_to_rgb12", "src/avx2/yuv_p16_to_rgb16.rs: avx_yuv_p16_to_rgba_row", "src/avx2/yuv_p16_to_rgb_d16.rs: avx_yuv_p16_to_rgba_d16_row", "src/sse/yuv_p16_to_rgb16.rs: sse_yuv_p16_to_rgba_row"]}
{"id": "C85", "title": "Planar 10- and 12-bit to 8-bit decoding on x86 processors is safe and exact", "statement": "For every 10- or 12-bit planar image in any byte order and packing, whatever the 16-bit words stored in it, decoding to 8-bit RGB on a processor with AVX2, with SSE4.1 or without either ends normally, reads and writes inside the given slices, writes exactly the pixels of the image and nothing of the padding. Every pixel is a fixed function of its column and of the samples shown at it. Byte order and packing only represent the samples. Processors with AVX2 and with SSE4.1 write the same buffer.", "quantifier": "every processor class, depth, byte order, packing, sampling, layout, range, matrix, size, stride and content", "why_tests_cant": "An AVX2 processor runs three loops of two kernels and scalar code on one row; a test runs on one processor at a few sizes.", "anchors": ["src/yuv_p10_rgba.rs: yuv_p16_to_image_ant, i010_to_rgb, i210_to_rgba, i412_to_bgra", "src/avx2/yuv_p16_to_rgb8.rs: avx_yuv_p16_to_rgba8_row", "src/sse/yuv_p16_to_rgb8.rs: sse_yuv_p16_to_rgba8_row"]}
{"id": "C86", "title": "Planar 10- and 12-bit to 8-bit decoding agrees on all x86 processors", "statement": "Two processors of whatever class decode the same 10- or 12-bit planar image to 8-bit colours at most one code value apart, opaque everywhere, and within 1.54 code values of the exact ITU-R colour scaled to 8 bits and saturated.", "quantifier": "every two processor classes, depth, byte order, packing, sampling, layout, range, matrix, size, stride and content", "why_tests_cant": "A test runs on one processor; the result depends on the column of a pixel.", "anchors": ["src/yuv_p10_rgba.rs: yuv_p16_to_image_ant, i010_to_rgb, i210_to_rgba, i412_to_bgra", "src/avx2/yuv_p16_to_rgb8.rs: avx_yuv_p16_to_rgba8_row", "src/sse/yuv_p16_to_rgb8.rs: sse_yuv_p16_to_rgba8_row"]}
{"id": "C87", "title": "10- to 16-bit decoding with an alpha plane on x86 processors is safe and exact", "statement": "For every 10-, 12-, 14- or 16-bit image with an alpha plane in any byte order and packing, whatever the words stored in it, decoding to RGBA or BGRA of the same depth on a processor with AVX2, with SSE4.1 or without either ends normally, reads and writes inside the given slices and writes exactly the pixels of the image. Every pixel is a fixed function of its column, of the samples shown at it and of the alpha row. Byte order and packing only represent the luma and chroma samples.", "quantifier": "every processor class, depth, byte order, packing, sampling, layout, range, matrix, size, stride and content", "why_tests_cant": "An AVX2 processor runs three loops of two kernels and scalar code on one row; a test runs on one processor at a few sizes.", "anchors": ["src/yuv_p16_rgba16_alpha.rs: yuv_p16_to_image_alpha_ant, i010_alpha_to_rgba10", "src/avx2/yuv_p16_to_rgb16_alpha.rs: avx_yuv_p16_to_rgba_alpha_row", "src/sse/yuv_p16_to_rgb16_alpha.rs: sse_yuv_p16_to_rgba_alpha_row"]}
{"id": "C88", "title": "10- to 16-bit decoding with an alpha plane agrees on all x86 processors", "statement": "Every processor decodes the same 10- to 16-bit image with an alpha plane to colours at most two code values from those of the portable decoder, and stores with every pixel the alpha sample of that pixel.", "quantifier": "every processor class, depth, byte order, packing, sampling, layout, range, matrix, size, stride and content", "why_tests_cant": "A test runs on one processor; whether the alpha is right depends on the column of a pixel and on the width.", "anchors": ["src/yuv_p16_rgba16_alpha.rs: yuv_p16_to_image_alpha_ant, i010_alpha_to_rgba10", "src/avx2/yuv_p16_to_rgb16_alpha.rs: avx_yuv_p16_to_rgba_alpha_row", "src/sse/yuv_p16_to_rgb16_alpha.rs: sse_yuv_p16_to_rgba_alpha_row"]}
{"id": "C89", "title": "10- and 12-bit decoding with an alpha plane to 8 bits on x86 processors is safe and exact", "statement": "For every 10- or 12-bit image with an alpha plane, decoding to 8-bit RGBA or BGRA on a processor with AVX2, with SSE4.1 or without either ends normally, writes exactly the pixels of the image and never stores outside the destination row.", "quantifier": "every processor class, depth, byte order, packing, sampling, layout, range, matrix, size, stride and content", "why_tests_cant": "Whether a store leaves the row depends on the width and on the processor; memory past a row is often writable, so a test sees nothing.", "anchors": ["src/yuv_p16_rgba_alpha.rs: yuv_p16_to_image_alpha_ant, i010_alpha_to_rgba", "src/avx2/yuv_p16_to_rgb8_alpha.rs: avx_yuv_p16_to_rgba8_alpha_row", "src/sse/yuv_p16_to_rgb8_alpha.rs: sse_yuv_p16_to_rgba8_alpha_row"]}
{"id": "C90", "title": "10- and 12-bit decoding with an alpha plane to 8 bits agrees on all x86 processors", "statement": "Every processor decodes the same 10- or 12-bit image with an alpha plane to 8-bit colours at most one below the correctly rounded and saturated ones, with the upper eight bits of the alpha of the pixel.", "quantifier": "every processor class, depth, byte order, packing, sampling, layout, range, matrix, size, stride and content", "why_tests_cant": "A test runs on one processor; the result depends on the column of a pixel.", "anchors": ["src/yuv_p16_rgba_alpha.rs: yuv_p16_to_image_alpha_ant, i010_alpha_to_rgba", "src/avx2/yuv_p16_to_rgb8_alpha.rs: avx_yuv_p16_to_rgba8_alpha_row", "src/sse/yuv_p16_to_rgb8_alpha.rs: sse_yuv_p16_to_rgba8_alpha_row"]}
{"id": "C91", "title": "10- and 12-bit semi-planar decoding on x86 processors is safe and exact", "statement": "For every 10- or 12-bit semi-planar image in any byte order, packing and chroma order, whatever the words stored in it, decoding to RGB of the same depth on a processor with AVX2, with SSE4.1 or without either ends normally, reads and writes inside the given slices and writes exactly the pixels of the image. Every pixel is a fixed function of its column, its luma and the chroma of its row; byte order and packing only represent the samples.", "quantifier": "every processor class, chroma order, depth, byte order, packing, sampling, layout, range, matrix, size, stride and content", "why_tests_cant": "A vector loop and scalar code share every row; a test runs on one processor at a few sizes.", "anchors": ["src/yuv_nv_p16_to_rgb16.rs: yuv_nv_p16_to_image_impl, p010_to_rgb10", "src/sse/yuv_nv_p16_to_rgb.rs: sse_yuv_nv_p16_to_rgba_row"]}
{"id": "C92", "title": "10- and 12-bit semi-planar decoding agrees on all x86 processors", "statement": "Every processor decodes the same 10- or 12-bit semi-planar image to pixels at most one code value per component from those of the portable decoder: each pixel shows the luma and the chroma of its own position.", "quantifier": "every processor class, chroma order, depth, byte order, packing, sampling, layout, range, matrix, size, stride and content", "why_tests_cant": "A test runs on one processor; whether the chroma is right depends on the column of a pixel.", "anchors": ["src/yuv_nv_p16_to_rgb16.rs: yuv_nv_p16_to_image_impl, p010_to_rgb10", "src/sse/yuv_nv_p16_to_rgb.rs: sse_yuv_nv_p16_to_rgba_row"]}
{"id": "C93", "title": "10- to 16-bit planar encoding on x86 processors is safe and exact", "statement": "For every RGB or RGBA buffer of 10, 12, 14 or 16 bits and every good planar destination, encoding on a processor with AVX2 or with SSE4.1 ends normally, reads and writes inside the given slices, writes exactly the luma samples of the image and the chroma samples covering it and leaves the padding alone. Every chroma sample is a fixed function of the pixels it covers and every luma sample a fixed function of the pixels at and above its position; byte order and packing only represent the samples.", "quantifier": "every processor class, depth, byte order, packing, sampling, layout, range, matrix, size, stride and content", "why_tests_cant": "Vector loops of several widths, scratch buffers for the rest of the row and scalar code share every row; a test runs on one processor at a few sizes.", "anchors": ["src/rgb16_to_yuv_p16.rs: rgbx_to_yuv_ant, rgb10_to_i010", "src/avx2/rgb_to_yuv_p16.rs", "src/avx2/rgb_to_yuv_p16_420.rs", "src/avx2/rgb_to_yuv_p16_d16.rs", "src/avx2/rgb_to_yuv_p16_420_d16.rs", "src/sse/rgb_to_yuv_p16.rs", "src/sse/rgb_to_yuv_p16_420.rs"]}
{"id": "C94", "title": "10- to 16-bit planar encoding is correct on every x86 processor", "statement": "On every processor the luma stored for a pixel is that of this pixel and the chroma that of the average colour of the pixels it covers, to one code value of the portable arithmetic.", "quantifier": "every processor class, depth, sampling, layout, range, matrix, size, stride and content", "why_tests_cant": "A test runs on one processor; which rows and depths are wrong depends on it.", "anchors": ["src/rgb16_to_yuv_p16.rs: rgbx_to_yuv_ant, rgb10_to_i010", "src/avx2/rgb_to_yuv_p16.rs", "src/avx2/rgb_to_yuv_p16_420.rs", "src/avx2/rgb_to_yuv_p16_d16.rs", "src/avx2/rgb_to_yuv_p16_420_d16.rs", "src/sse/rgb_to_yuv_p16.rs", "src/sse/rgb_to_yuv_p16_420.rs"]}
{"id": "C95", "title": "10- to 16-bit 4:4:4 images survive a round trip between any two x86 processors", "statement": "An RGB or RGBA image of 10, 12, 14 or 16 bits encoded to planar 4:4:4 on one x86 processor and decoded on the same or another one comes back with red, green and blue within a small stated number of code values of the original; the bound grows by two where the decoding processor uses 16-bit products.", "quantifier": "every pair of processor classes, depth, byte order, packing, source and target layout, range, matrix, size, stride and content", "why_tests_cant": "A test runs on one processor, so it never combines the encoder of one with the decoder of another, and it samples a few of 2^48 colours.", "anchors": ["src/rgb16_to_yuv_p16.rs: rgbx_to_yuv_ant, rgb10_to_i410", "src/yuv_p16_rgba_p16.rs: i410_to_rgb10", "src/avx2", "src/sse"]}
{"id": "C96", "title": "The professional encoding mode stays inside its buffers on every x86 processor and determines every sample", "statement": "In the professional mode encoding RGB, BGR, RGBA or BGRA to 8-bit planar or semi-planar YCbCr succeeds on every x86 processor: no vector load or store leaves its row or scratch buffer, padding is untouched, every sample is a stated function of the pixels it covers. AVX2 and SSE4.1 give the same bytes, planar and semi-planar images show the same picture, NV21 is NV12 with exchanged pairs.", "quantifier": "every processor class, layout, sampling, chroma order, range, matrix, size (widths that are no multiple of the vector width included), stride and content", "why_tests_cant": "A test runs on one processor and visits a few widths; tails through scratch buffers depend on the width modulo the vector width and on the parity.", "anchors": ["src/rgba_to_yuv.rs: RgbEncoderProfessional, RgbEncoder420Professional, rgbx_to_yuv8", "src/rgba_to_nv.rs: SemiPlanarEncoderProfessional, SemiPlanar420EncoderProfessional, rgbx_to_nv", "src/avx2/rgb_to_yuv_prof.rs", "src/avx2/rgb_to_yuv420_prof.rs", "src/avx2/rgb_to_nv_prof.rs", "src/avx2/rgb_to_nv420_prof.rs", "src/sse"]}
{"id": "C97", "title": "In the professional mode processors agree and the result is accurate", "statement": "In the professional mode two x86 processors store identical luma and, without subsampling, identical chroma; subsampled chroma differs by at most one code value. Luma is within 0.55 code values of the exact ITU-R value on every processor, chroma within 0.55 (no subsampling), 0.77 (vector code) or 1.05 (scalar code). Limited-range samples stay within 16…235 and 16…240.", "quantifier": "every pair of processor classes, layout, sampling, range, matrix, size, stride and content", "why_tests_cant": "The claim compares processors a test cannot run on together, for all 2^24 colours per pixel and 2^96 blocks.", "anchors": ["src/rgba_to_yuv.rs: RgbEncoderProfessional, RgbEncoder420Professional, rgbx_to_yuv8", "src/rgba_to_nv.rs: SemiPlanarEncoderProfessional, SemiPlanar420EncoderProfessional, rgbx_to_nv", "src/avx2/rgb_to_yuv_prof.rs", "src/avx2/rgb_to_yuv420_prof.rs", "src/avx2/rgb_to_nv_prof.rs", "src/avx2/rgb_to_nv420_prof.rs", "src/sse"]}
{"id": "C98", "title": "The fast encoding mode stays inside its buffers on every x86 processor and determines every sample", "statement": "In the fast mode encoding RGB, BGR, RGBA or BGRA to 8-bit planar or semi-planar YCbCr succeeds on every x86 processor: no vector load or store leaves its row or scratch buffer, padding is untouched, every sample is a stated function of the pixels it covers. AVX2 and SSE4.1 give the same bytes, planar and semi-planar images show the same picture, NV21 is NV12 with exchanged pairs.", "quantifier": "every processor class, layout, sampling, chroma order, range, matrix, size (widths that are no multiple of the vector width, odd widths and heights), stride, padding and content", "why_tests_cant": "A wrong lane, shuffle index or tail length shows only for some widths, layouts and contents, and the 16-bit sums can overflow for few colours.", "anchors": ["src/rgba_to_yuv.rs: RgbEncoderFast, RgbEncoderFast420, rgbx_to_yuv8", "src/rgba_to_nv.rs: SemiPlanarEncoderFast, SemiPlanar420EncoderFast, rgbx_to_nv", "src/avx2/rgba_to_yuv_fast.rs", "src/avx2/rgba_to_yuv_fast420.rs", "src/avx2/rgba_to_nv_fast.rs", "src/avx2/rgba_to_nv_fast420.rs", "src/sse"]}
{"id": "C99", "title": "In the fast mode processors agree and the result is near the standard", "statement": "In the fast mode two x86 processors store luma and chroma that differ by at most one code value; luma is identical but for BT.2020 in full range, chroma is identical unless two rows share it. On every processor luma is within 3.5 code values of the exact ITU-R value, chroma within 3.5 without and 4 with subsampling.", "quantifier": "every pair of processor classes, layout, sampling, range, matrix, size, stride and content", "why_tests_cant": "The claim compares processors a test cannot run at once, for every colour of every table; the overflowing colours are few.", "anchors": ["src/rgba_to_yuv.rs: RgbEncoderFast, RgbEncoderFast420, rgbx_to_yuv8", "src/rgba_to_nv.rs: SemiPlanarEncoderFast, SemiPlanar420EncoderFast, rgbx_to_nv", "src/avx2/rgba_to_yuv_fast.rs", "src/avx2/rgba_to_yuv_fast420.rs", "src/avx2/rgba_to_nv_fast.rs", "src/avx2/rgba_to_nv_fast420.rs", "src/sse"]}
{"id": "C100", "title": "The professional semi-planar decoders stay inside their buffers on every x86 processor and determine every pixel", "statement": "In the professional mode decoding NV12, NV21, NV16, NV61, NV24 or NV42 to RGB, BGR, RGBA or BGRA succeeds on every x86 processor: no vector load or store leaves its row or scratch buffer, padding is untouched, every pixel is a stated function of the samples shown there. NV21 is NV12 with exchanged pairs.", "quantifier": "every processor class, layout, sampling, chroma order, range, matrix, size (widths that are no multiple of the vector width, odd widths and heights), stride, padding and content", "why_tests_cant": "A wrong lane, shuffle index or tail length shows only for some widths, layouts and contents.", "anchors": ["src/yuv_nv_to_rgba.rs: yuv_nv12_to_rgbx, NVRowHandlerProfessional, NVRowHandlerFast", "src/avx2/yuv_nv_to_rgba_prof.rs", "src/avx2/yuv_nv_to_rgba420_prof.rs", "src/avx2/yuv_nv_to_rgba_fast.rs", "src/avx2/yuv_nv_to_rgba_fast420.rs", "src/sse"]}
{"id": "C101", "title": "In the professional mode processors agree and the result is near the standard", "statement": "In the professional mode two x86 processors decode a semi-planar image to identical bytes, each component within 0.52 code values of the saturated exact ITU-R result.", "quantifier": "every pair of processor classes, layout, sampling, order, range, matrix, size, stride and content", "why_tests_cant": "The claim compares processors a test cannot run at once, for every triple of samples of every table.", "anchors": ["src/yuv_nv_to_rgba.rs: yuv_nv12_to_rgbx, NVRowHandlerProfessional, NVRowHandlerFast", "src/avx2/yuv_nv_to_rgba_prof.rs", "src/avx2/yuv_nv_to_rgba420_prof.rs", "src/avx2/yuv_nv_to_rgba_fast.rs", "src/avx2/yuv_nv_to_rgba_fast420.rs", "src/sse"]}
{"id": "C102", "title": "The fast semi-planar decoders stay inside their buffers on every x86 processor and determine every pixel", "statement": "In the fast mode decoding NV12, NV21, NV16, NV61, NV24 or NV42 to RGB, BGR, RGBA or BGRA succeeds on every x86 processor: no vector load or store leaves its row or scratch buffer, padding is untouched, every pixel is a stated function of the samples shown there. NV21 is NV12 with exchanged pairs.", "quantifier": "every processor class, layout, sampling, chroma order, range, matrix, size, stride, padding and content", "why_tests_cant": "A wrong lane or tail length shows only for some widths, layouts and contents, and the 16-bit sums overflow for few colours.", "anchors": ["src/yuv_nv_to_rgba.rs: yuv_nv12_to_rgbx, NVRowHandlerProfessional, NVRowHandlerFast", "src/avx2/yuv_nv_to_rgba_prof.rs", "src/avx2/yuv_nv_to_rgba420_prof.rs", "src/avx2/yuv_nv_to_rgba_fast.rs", "src/avx2/yuv_nv_to_rgba_fast420.rs", "src/sse"]}
{"id": "C103", "title": "In the fast mode processors decode semi-planar images to nearly the same pixels", "statement": "In the fast mode two x86 processors decode a semi-planar image to pixels whose components differ by at most one code value.", "quantifier": "every pair of processor classes, layout, sampling, order, range, matrix, size, stride and content", "why_tests_cant": "The claim compares processors a test cannot run at once; the colours for which the sums overflow are few.", "anchors": ["src/yuv_nv_to_rgba.rs: yuv_nv12_to_rgbx, NVRowHandlerProfessional, NVRowHandlerFast", "src/avx2/yuv_nv_to_rgba_prof.rs", "src/avx2/yuv_nv_to_rgba420_prof.rs", "src/avx2/yuv_nv_to_rgba_fast.rs", "src/avx2/yuv_nv_to_rgba_fast420.rs", "src/sse"]}
{"id": "C104", "title": "The decoders stay inside their buffers on 32-bit WebAssembly with SIMD and determine every pixel", "statement": "Compiled for 32-bit WebAssembly with SIMD, decoding a planar, semi-planar or grey image to RGB, BGR, RGBA or BGRA succeeds whenever the slices fit the address space: no 32-bit size product overflows, no vector load or store leaves its row or scratch buffer, padding is untouched, every pixel is a stated function of its samples and its column. NV21 is NV12 with exchanged pairs.", "quantifier": "every layout, sampling, chroma order, range, matrix, size, stride, padding and content addressable with 32 bits", "why_tests_cant": "Tests run on the host, not on WebAssembly; a wrong lane or an overflow of a 32-bit size shows only for some sizes and contents.", "anchors": ["src/wasm32/yuv_to_rgba.rs: wasm_yuv_to_rgba_row", "src/wasm32/yuv_to_rgba420.rs", "src/wasm32/yuv_nv_to_rgba.rs: wasm_yuv_nv_to_rgba_row", "src/wasm32/yuv_nv_to_rgba420.rs", "src/wasm32/y_to_rgb.rs", "src/wasm32/utils.rs", "src/yuv_to_rgba.rs: yuv_to_rgbx", "src/yuv_nv_to_rgba.rs: yuv_nv12_to_rgbx", "src/y_to_rgb.rs: y_to_rgbx"]}
{"id": "C105", "title": "WebAssembly decodes to nearly the same pixels as the portable code", "statement": "Compiled for WebAssembly with SIMD a decoder gives pixels whose red and blue differ by at most one and whose green differs by at most two code values from those of the portable code; grey images give identical bytes.", "quantifier": "every layout, sampling, chroma order, range, matrix, size, stride and content addressable with 32 bits", "why_tests_cant": "The claim compares two targets a test cannot run at once, for every triple of samples of every table and every column.", "anchors": ["src/wasm32/yuv_to_rgba.rs: wasm_yuv_to_rgba_row", "src/wasm32/yuv_to_rgba420.rs", "src/wasm32/yuv_nv_to_rgba.rs: wasm_yuv_nv_to_rgba_row", "src/wasm32/yuv_nv_to_rgba420.rs", "src/wasm32/y_to_rgb.rs", "src/wasm32/utils.rs", "src/yuv_to_rgba.rs: yuv_to_rgbx", "src/yuv_nv_to_rgba.rs: yuv_nv12_to_rgbx", "src/y_to_rgb.rs: y_to_rgbx"]}
{"id": "C106", "title": "The decoders stay inside their buffers on 64-bit ARM and determine every pixel", "statement": "On AArch64, with or without the rounding multiply-accumulate instructions, decoding a planar, semi-planar or grey image to RGB, BGR, RGBA or BGRA succeeds: no vector load or store leaves its row or scratch buffer, padding is untouched, every pixel is a stated function of its three samples and of whether its row belongs to a pair of rows of a 4:2:0 image. NV21 is NV12 with exchanged pairs, and a semi-planar image decodes as the planar image with the same samples.", "quantifier": "every layout, sampling, chroma order, range, matrix, size, stride, padding and content, and both kinds of processor", "why_tests_cant": "Tests run on one processor with a few sizes; a wrong lane, a load past a row or a wrong tail shows only for some widths and contents.", "anchors": ["src/neon/yuv_to_rgba.rs: neon_yuv_to_rgba_row_rdm_impl", "src/neon/yuv_to_rgba420.rs: neon_yuv_to_rgba_row420_impl", "src/neon/yuv_nv_to_rgba.rs: neon_yuv_nv_to_rgba_row_impl", "src/neon/yuv_nv_to_rgba420.rs: neon_yuv_nv_to_rgba_row_h_impl", "src/neon/y_to_rgb.rs: neon_y_to_rgb_row_impl", "src/neon/utils.rs", "src/yuv_to_rgba.rs: yuv_to_rgbx", "src/yuv_nv_to_rgba.rs: yuv_nv12_to_rgbx", "src/y_to_rgb.rs: y_to_rgbx"]}
{"id": "C107", "title": "64-bit ARM decodes to nearly the same pixels as the portable code", "statement": "On AArch64 a decoder gives pixels whose red and blue differ by at most two and whose green differs by at most three code values from those of the portable code, and which lie within 2.54 (green 3.54) code values of the ideal conversion; grey levels differ by at most one.", "quantifier": "every layout, sampling, chroma order, range, matrix, size, stride and content, and both kinds of processor", "why_tests_cant": "The claim compares two processors a test cannot run at once, for every triple of samples of every table.", "anchors": ["src/neon/yuv_to_rgba.rs: neon_yuv_to_rgba_row_rdm_impl", "src/neon/yuv_to_rgba420.rs: neon_yuv_to_rgba_row420_impl", "src/neon/yuv_nv_to_rgba.rs: neon_yuv_nv_to_rgba_row_impl", "src/neon/yuv_nv_to_rgba420.rs: neon_yuv_nv_to_rgba_row_h_impl", "src/neon/y_to_rgb.rs: neon_y_to_rgb_row_impl", "src/neon/utils.rs", "src/yuv_to_rgba.rs: yuv_to_rgbx", "src/yuv_nv_to_rgba.rs: yuv_nv12_to_rgbx", "src/y_to_rgb.rs: y_to_rgbx"]}
{"id": "C108", "title": "On 64-bit ARM a pixel does not depend on its place", "statement": "On AArch64 two pixels with the same three samples decode to the same colour, whatever their columns and rows, in the same image or in two images of different sizes.", "quantifier": "every layout, sampling, chroma order, range, matrix, pair of images and pair of pixels, and both kinds of processor", "why_tests_cant": "A difference shows only between the vector loops, the tail and the last row of an odd height, for some triples of samples.", "anchors": ["src/neon/yuv_to_rgba.rs: neon_yuv_to_rgba_row_rdm_impl", "src/neon/yuv_to_rgba420.rs: neon_yuv_to_rgba_row420_impl", "src/neon/yuv_nv_to_rgba.rs: neon_yuv_nv_to_rgba_row_impl", "src/neon/yuv_nv_to_rgba420.rs: neon_yuv_nv_to_rgba_row_h_impl", "src/neon/y_to_rgb.rs: neon_y_to_rgb_row_impl", "src/neon/utils.rs", "src/yuv_to_rgba.rs: yuv_to_rgbx", "src/yuv_nv_to_rgba.rs: yuv_nv12_to_rgbx", "src/y_to_rgb.rs: y_to_rgbx"]}
{"id": "C109", "title": "The balanced encoders stay inside their buffers on 64-bit ARM and determine every sample", "statement": "On AArch64, with or without the rounding multiply-accumulate instructions, encoding RGB, BGR, RGBA or BGRA to a planar or semi-planar image in the balanced mode succeeds: no vector load or store leaves its row or scratch buffer, padding is untouched, every sample is a stated function of the pixels it covers. The result depends on the source pixels only, NV21 is NV12 with exchanged pairs, and the planar and the semi-planar encoder give the same picture.", "quantifier": "every layout, sampling, chroma order, range, matrix, size, stride, padding and content, and both kinds of processor", "why_tests_cant": "Tests run on one processor with a few sizes; a wrong lane, a load past a row or a wrong tail shows only for some widths and contents.", "anchors": ["src/neon/rgba_to_yuv.rs: neon_rgba_to_yuv, neon_rgba_to_yuv_rdm", "src/neon/rgba_to_yuv420.rs: neon_rgba_to_yuv420, neon_rgba_to_yuv_rdm420", "src/neon/rgba_to_nv.rs: neon_rgbx_to_nv_row, neon_rgbx_to_nv_row_rdm", "src/neon/rgba_to_nv420.rs", "src/rgba_to_yuv.rs: RgbEncoder", "src/rgba_to_nv.rs: SemiPlanarEncoder, SemiPlanar420Encoder"]}
{"id": "C110", "title": "64-bit ARM encodes to nearly the same samples as the portable code, close to the standard and within the nominal range", "statement": "In the balanced mode on AArch64, without the rounding instructions luma and chroma are those of the portable encoder, but for 4:2:0 chroma, which may differ by one; with them every sample differs by at most one. Against the exact ITU-R values luma is within 0.55 and chroma within 0.55 (1.05 subsampled) code values without the instructions, within 1.18 and 0.93 with them. In limited range luma stays within 16..235 and chroma within 16..240.", "quantifier": "every layout, sampling, chroma order, range, matrix, size, stride and content, and both kinds of processor", "why_tests_cant": "The claim compares two processors a test cannot run at once, for every block of pixels of every table.", "anchors": ["src/neon/rgba_to_yuv.rs: neon_rgba_to_yuv, neon_rgba_to_yuv_rdm", "src/neon/rgba_to_yuv420.rs: neon_rgba_to_yuv420, neon_rgba_to_yuv_rdm420", "src/neon/rgba_to_nv.rs: neon_rgbx_to_nv_row, neon_rgbx_to_nv_row_rdm", "src/neon/rgba_to_nv420.rs", "src/rgba_to_yuv.rs: RgbEncoder", "src/rgba_to_nv.rs: SemiPlanarEncoder, SemiPlanar420Encoder"]}
{"id": "C111", "title": "The professional encoders on 64-bit ARM determine every sample, agree with the portable code and honour the chroma order", "statement": "In the professional mode on AArch64 encoding to a planar or semi-planar image succeeds inside the buffers, padding is untouched, samples are those of the portable encoder, but for 4:2:0 chroma, which may differ by one, and lie within 0.55 (subsampled chroma 1.05) code values of the exact ITU-R values; NV12 stores Cb first, NV21 Cr first.", "quantifier": "every layout, sampling, chroma order, range, matrix, size, stride, padding and content", "why_tests_cant": "A swapped order shows only on one processor family, in one mode, for one layout.", "anchors": ["src/neon/rgb_to_yuv_prof.rs", "src/neon/rgb_to_yuv420_prof.rs", "src/neon/rgb_to_nv_prof.rs", "src/neon/rgb_to_nv420_prof.rs", "src/rgba_to_yuv.rs: RgbEncoderProfessional", "src/rgba_to_nv.rs: SemiPlanar420EncoderProfessional", "src/yuv_support.rs: YuvNVOrder, YuvChromaSubsampling"]}
{"id": "C112", "title": "The fast encoders on 64-bit ARM determine every sample, stay close to the standard and agree with the portable code", "statement": "In the fast mode on AArch64 encoding succeeds inside the buffers, padding is untouched, every sample is a stated function of its pixels; luma is within 3.5 and chroma within 3.5 (4 subsampled) code values of the exact ITU-R values for every matrix and range; the planar and the semi-planar encoder give the same picture; luma and unsubsampled chroma equal those of the portable encoder, subsampled chroma differs by at most one.", "quantifier": "every layout, sampling, chroma order, range, matrix, size, stride, padding and content", "why_tests_cant": "The extremes of seven-bit tables show only for a few colours of one matrix.", "anchors": ["src/neon/rgbx_to_yuv_fast.rs", "src/neon/rgbx_to_yuv_fast420.rs", "src/neon/rgbx_to_nv_fast.rs", "src/neon/rgbx_to_nv_fast420.rs", "src/rgba_to_yuv.rs: RgbEncoderFast", "src/rgba_to_nv.rs: SemiPlanarEncoderFast"]}
{"id": "C113", "title": "On 64-bit ARM YCgCo images decode to the same pixels as with the portable code", "statement": "Decoding an 8-bit YCgCo 4:2:0, 4:2:2 or 4:4:4 image to RGB, BGR, RGBA or BGRA on AArch64 succeeds with no vector load or store outside its row or scratch buffer, leaves padding untouched, and every pixel has the red, green and blue of the portable decoder and alpha 255.", "quantifier": "every layout, sampling, range, size, stride, padding and content", "why_tests_cant": "A wrong lane or alpha shows only on one processor family, for some samplings and some heights.", "anchors": ["src/neon/ycgco_to_rgb.rs: neon_ycgco_full_range_to_rgb", "src/neon/ycgco_to_rgb.rs: neon_ycgco420_to_rgba_row", "src/ycgco_to_rgb.rs"]}
{"id": "C114", "title": "On 64-bit ARM planar images with an alpha plane keep their alpha and decode to the portable colours", "statement": "Decoding an 8-bit planar YCbCr image with an alpha plane to RGBA or BGRA on AArch64 succeeds with no vector load or store outside its row or scratch buffer, leaves padding untouched, stores in every pixel the alpha sample of that pixel, and without premultiplication gives red, green and blue within 2, 3 and 2 code values of the portable decoder (for luma not below black).", "quantifier": "every sampling, layout, matrix, range, size, stride, padding, content and both variants of the kernel", "why_tests_cant": "A lane lost in the scratch buffer of the last pixels shows only on one processor family, for some samplings and in some columns.", "anchors": ["src/neon/yuv_to_rgba_alpha.rs: neon_yuv_to_rgba_alpha", "src/neon/yuv_to_rgba_alpha.rs: neon_yuv_to_rgba_alpha_rdm", "src/neon/utils.rs: neon_premultiply_alpha", "src/yuv_to_rgba_alpha.rs: yuv_with_alpha_to_rgbx"]}
{"id": "C115", "title": "On 64-bit ARM premultiplied decoding multiplies each pixel by its own alpha", "statement": "Decoding an 8-bit planar YCbCr image with an alpha plane with premultiplication on AArch64 gives in every pixel the straight colours times the alpha of that pixel over 255, rounded or one less, never above alpha, black where alpha is 0 and unchanged where it is 255.", "quantifier": "every sampling, layout, matrix, range, size, stride, content and both variants of the kernel", "why_tests_cant": "An alpha taken from another lane shows only on images wider than a vector whose alpha is not constant.", "anchors": ["src/neon/yuv_to_rgba_alpha.rs: neon_yuv_to_rgba_alpha", "src/neon/yuv_to_rgba_alpha.rs: neon_yuv_to_rgba_alpha_rdm", "src/neon/utils.rs: neon_premultiply_alpha", "src/yuv_to_rgba_alpha.rs: yuv_with_alpha_to_rgbx"]}
{"id": "C116", "title": "On 64-bit ARM channel shuffles give the portable result", "statement": "Converting between RGB, RGBA, BGR and BGRA on AArch64 succeeds with no vector load or store outside its row, leaves padding untouched and gives byte for byte the portable result: the colours of the source pixel in the order of the destination, the source alpha, and 255 where the source has none.", "quantifier": "every pair of layouts, size, stride, padding and content", "why_tests_cant": "A wrong filler byte shows only on one processor family, for layouts that add alpha, in the columns after the last whole vector.", "anchors": ["src/neon/shuffle.rs: ShuffleConverterNeon", "src/neon/utils.rs: neon_vld_h_rgb", "src/neon/utils.rs: neon_vld_rgb", "src/shuffle.rs: shuffle_impl"]}
{"id": "C117", "title": "On 64-bit ARM encoding to grey gives the portable luma within one code value", "statement": "Encoding RGB, RGBA, BGR or BGRA to an 8-bit grey image on AArch64 succeeds with no vector load or store outside its row, writes nothing but the samples, and gives in every pixel a luma within one code value of the portable encoder.", "quantifier": "every layout, matrix, range, size, stride, padding, content and both variants of the kernel", "why_tests_cant": "A wrong offset shows only on processors without one extension, in one range, in the columns of whole vectors.", "anchors": ["src/neon/rgb_to_y.rs: neon_rgb_to_y_rdm", "src/neon/rgb_to_y.rs: neon_rgb_to_y_row", "src/rgb_to_y.rs: rgbx_to_y"]}
{"id": "C118", "title": "On 64-bit ARM grey images with an alpha plane keep their alpha and decode to the portable levels", "statement": "Decoding an 8-bit grey image with an alpha plane to RGBA or BGRA on AArch64 succeeds with no vector load or store outside its row or scratch buffer, leaves padding untouched, stores in every pixel the alpha sample of that pixel and a grey within one code value of the portable decoder (the same bytes in full range; black 0 and white 255 in limited range), and with an opaque plane gives the bytes of the decoder without alpha.", "quantifier": "both layouts, every matrix, range, size, stride, padding, content and both variants of the kernel", "why_tests_cant": "Lanes of four loop sizes and a scratch buffer must all line up with the alpha plane, on a processor the tests may not run on.", "anchors": ["src/neon/y_to_rgb_alpha.rs: neon_y_to_rgb_row_alpha_impl", "src/y_with_alpha_to_rgb.rs: y_with_alpha_to_rgbx"]}
{"id": "C119", "title": "On 64-bit ARM GBR images decode to the bytes of the portable code", "statement": "Decoding an 8-bit GBR (identity matrix) image to RGB, RGBA, BGR or BGRA on AArch64 succeeds with no vector load or store outside its row, leaves padding untouched, and writes byte for byte what the portable decoder writes, in both ranges and with both variants of the kernel; RGB to GBR and back gives the colours unchanged in full range and within one in limited range.", "quantifier": "every layout, range, size, stride, padding, content and both variants of the kernel", "why_tests_cant": "The two variants round products differently; only the whole table of samples shows that no product is half way.", "anchors": ["src/neon/gbr_to_rgb.rs: yuv_to_rgba_row_limited_rdm", "src/neon/gbr_to_rgb.rs: yuv_to_rgba_row_limited", "src/neon/gbr_to_rgb.rs: yuv_to_rgba_row_full", "src/from_identity.rs: gbr_to_rgbx_impl"]}
{"id": "C120", "title": "On 64-bit ARM packing planar 4:2:2 or 4:2:0 gives the bytes of the portable code", "statement": "Packing an 8-bit planar 4:2:2 or 4:2:0 image to YUYV, UYVY, YVYU or VYUY on AArch64 succeeds with no vector load or store outside its row, and stores for every pair of pixels its two luma samples and its chroma and nothing else: the bytes the portable code and every x86 processor store.", "quantifier": "every order, size, stride, content", "why_tests_cant": "Lanes of two loop sizes and a scalar rest that starts at another index must line up for every width.", "anchors": ["src/neon/yuv_to_yuy2.rs: yuv_to_yuy2_neon_impl", "src/yuv_to_yuy2.rs: yuv_to_yuy2_impl"]}
{"id": "C121", "title": "On 64-bit ARM packing planar 4:4:4 stores the mean chroma of each pair", "statement": "Packing an 8-bit planar 4:4:4 image to YUYV, UYVY, YVYU or VYUY on AArch64 stores for every pair of pixels its two luma samples and the rounded means of its own two Cb and its own two Cr samples.", "quantifier": "every order, size, stride, content", "why_tests_cant": "Uniform or narrow test images hide that the wrong columns are averaged and that columns are skipped.", "anchors": ["src/neon/yuv_to_yuy2.rs: yuv_to_yuy2_neon_impl", "src/yuv_to_yuy2.rs: yuv_to_yuy2_impl"]}
{"id": "C122", "title": "On 64-bit ARM unpacking packed 4:2:2 gives the whole image", "statement": "Unpacking YUYV, UYVY, YVYU or VYUY to planar 4:2:0, 4:2:2 or 4:4:4 on AArch64 stores every luma sample and the chroma of every pair, as the portable code does, and for every input behaves as the x86 build with SSE4.1.", "quantifier": "every order, sampling, size, stride, content", "why_tests_cant": "The columns left out depend on the width, and the chroma row taken on whether vector code ran.", "anchors": ["src/neon/yuy2_to_yuv.rs: yuy2_to_yuv_neon_impl", "src/yuy2_to_yuv.rs: yuy2_to_yuv_impl"]}
{"id": "C123", "title": "On 64-bit ARM packed 4:2:2 decodes to RGB as on other processors", "statement": "Decoding YUYV, UYVY, YVYU or VYUY to RGB, RGBA, BGR or BGRA on AArch64 succeeds with no vector load or store outside its row, leaves padding untouched, gives each pixel the colours of its own luma and of the chroma of its pair, within 4.5 steps of the exact decoding, and returns the frame other processors return.", "quantifier": "every order, layout, range, matrix, size, stride, padding, content", "why_tests_cant": "Ties and luma below the offset are rare in test images, and the columns they matter in depend on the width.", "anchors": ["src/neon/yuy2_to_rgb.rs: yuy2_to_rgb_neon", "src/yuy2_to_rgb.rs: yuy2_to_rgb_impl"]}
{"id": "C124", "title": "On 64-bit ARM packed 4:4:4 images decode pixel by pixel", "statement": "Decoding an AYUV or VUYA image on AArch64 succeeds with no vector load or store outside its row, writes every pixel from its own four bytes and leaves padding untouched; the stored alpha is that of the pixel; straight colours are within two (red, blue) and three (green) of the portable decoder where luma is not below black.", "quantifier": "every order, layout, range, matrix, size, stride, padding, content and both variants of the kernel", "why_tests_cant": "Three loop remainders and two roundings of the products; only a proof covers every width and sample.", "anchors": ["src/neon/ayuv_to_rgba.rs: neon_ayuv_to_rgba_impl", "src/ayuv_to_rgb.rs: ayuv_to_rgb_launch"]}
{"id": "C125", "title": "On 64-bit ARM packed 4:4:4 images are premultiplied correctly", "statement": "Decoding an AYUV or VUYA image on AArch64 with premultiplication gives in every pixel the straight component times alpha over 255, rounded or one less, never above alpha; transparent pixels are black and opaque pixels unchanged.", "quantifier": "every order, layout, range, matrix, size, stride, content and both variants of the kernel", "why_tests_cant": "The x86 code is wrong in saturated components of the last pixels only (C81); a test of ordinary pixels would not tell the two apart.", "anchors": ["src/neon/ayuv_to_rgba.rs: neon_ayuv_to_rgba_impl", "src/neon/utils.rs: neon_premultiply_alpha"]}
{"id": "C126", "title": "On 64-bit ARM the professional semi-planar decoders agree with x86 vector code byte for byte", "statement": "In the professional mode every NV12/NV21/NV16/NV61/NV24/NV42 decoder on AArch64 succeeds with no vector load or store outside its row or buffer, writes every pixel the precision-14 decoding of its own samples, leaves padding untouched, and produces the very bytes an AVX2 or SSE4.1 processor produces; swapping the chroma pairs and reading in the other order gives identical bytes.", "quantifier": "every order, sampling, layout, range, matrix, size, stride, padding and content", "why_tests_cant": "Saturating doubled products in 32 bits, a coefficient split in two, and a different grouping of the green sum for pairs of rows; equality for all samples and widths needs a proof.", "anchors": ["src/neon/yuv_nv_to_rgba_prof.rs: neon_yuv_nv_to_rgba_row_prof", "src/neon/yuv_nv_to_rgba420_prof.rs: neon_yuv_nv_to_rgba_row420_prof", "src/yuv_nv_to_rgba.rs: yuv_nv12_to_rgbx"]}
{"id": "C127", "title": "On 64-bit ARM the professional semi-planar decoders agree with portable code and the standard", "statement": "In the professional mode every semi-planar decoder on AArch64 gives the bytes of the portable code, and every component is within 0.52 of the exact ITU-R value.", "quantifier": "every order, sampling, layout, range, matrix, size, stride and content", "why_tests_cant": "One matrix in one range overflows a 16-bit coefficient; tests with common matrices pass.", "anchors": ["src/neon/yuv_nv_to_rgba_prof.rs: neon_yuv_nv_to_rgba_row_prof", "src/neon/yuv_nv_to_rgba420_prof.rs: neon_yuv_nv_to_rgba_row420_prof"]}
{"id": "C128", "title": "On 64-bit ARM the fast semi-planar decoders decode pixel by pixel", "statement": "In the fast mode every NV12/NV21/NV16/NV61/NV24/NV42 decoder on AArch64 succeeds with no vector load or store outside its row or buffer, writes every pixel from its own samples with the precision-6 coefficients rounded to nearest, and leaves padding untouched; swapping the chroma pairs and reading in the other order gives identical bytes.", "quantifier": "every order, sampling, layout, range, matrix, size, stride, padding and content", "why_tests_cant": "The remainder of a row goes through stack buffers and 16-bit sums wrap; every width and sample must be covered.", "anchors": ["src/neon/yuv_nv_to_rgbx_fast.rs: neon_yuv_nv_to_rgba_fast_row", "src/neon/yuv_nv_to_rgbx_fast420.rs: neon_yuv_nv_to_rgba_fast_row420"]}
{"id": "C129", "title": "On 64-bit ARM the fast semi-planar decoders agree with other processors to one code value", "statement": "In the fast mode the components of every pixel decoded on AArch64 differ by at most one code value from those an x86 processor or the portable code gives.", "quantifier": "every order, sampling, layout, range, matrix, size, stride and content", "why_tests_cant": "Agreement across processors is a statement about pairs of runs on different machines, and fails only for extreme colours.", "anchors": ["src/neon/yuv_nv_to_rgbx_fast.rs: neon_yuv_nv_to_rgba_fast_row", "src/neon/yuv_nv_to_rgbx_fast420.rs: neon_yuv_nv_to_rgba_fast_row420"]}
{"id": "C130", "title": "On 64-bit ARM the 10- and 12-bit planar decoders to 8-bit RGB decode pixel by pixel, opaque", "statement": "Every planar 10- or 12-bit YCbCr to 8-bit RGB/RGBA/BGR/BGRA decoder on AArch64 succeeds whatever words the image holds, with no vector load or store outside its row, writes every pixel from its own native samples, stores opaque alpha everywhere, leaves padding untouched, and gives the same bytes for every byte order and packing of the same samples.", "quantifier": "every depth 10 or 12, sampling, byte order, packing, layout, range, matrix, size, stride, padding and content, samples beyond the depth included", "why_tests_cant": "Raw vector loads of four or eight words at computed positions; absence of out-of-bounds access for all widths and samplings needs a proof.", "anchors": ["src/neon/yuv_p16_to_rgba8.rs: neon_yuv_p16_to_rgba_row", "src/neon/utils.rs: vpackq_n_shift16", "src/yuv_p10_rgba.rs: yuv_p16_to_image_ant"]}
{"id": "C131", "title": "On 64-bit ARM the 10- and 12-bit decoders to 8 bits agree with portable code, x86 and the standard", "statement": "The components of every pixel decoded on AArch64 are those of the correctly rounded decoding or one less, so at most one from what portable code or an x86 processor gives, and within 1.54 of the exact ITU-R colour scaled to 8 bits.", "quantifier": "every depth 10 or 12, sampling, byte order, packing, layout, range, matrix, size and content", "why_tests_cant": "The error bound must hold for every sample triple and every column of every width.", "anchors": ["src/neon/yuv_p16_to_rgba8.rs: neon_yuv_p16_to_rgba_row", "src/yuv_p10_rgba.rs: yuv_p16_to_image_ant"]}
{"id": "C132", "title": "On 64-bit ARM the grey decoders of 10 to 16 bits write exactly the portable bytes", "statement": "Every y010/y012/y014/y016 to RGB, RGBA decoder on AArch64 succeeds on a well-formed grey image and destination, writes every pixel grey with the level of its own sample and opaque alpha, leaves padding untouched, and writes the same bytes as portable code.", "quantifier": "every depth 10, 12, 14 or 16, layout, range, matrix, size, stride, padding and legal content", "why_tests_cant": "Sizes, strides and contents are unbounded; the vector code takes eight pixels at a time and the last one to eight through buffers of its own.", "anchors": ["src/neon/y_p16_to_rgba16.rs: neon_y_p16_to_rgba16_row", "src/y_p16_to_rgb16.rs: yuv400_p16_to_rgbx_impl", "src/neon/utils.rs: neon_store_rgb16"]}
{"id": "C133", "title": "The grey decoders of 10 to 16 bits never write outside the destination", "statement": "Whatever destination slice and stride is given to a y010/y012/y014/y016 decoder on AArch64, no element outside the slice is written: a destination too small is refused or truncated.", "quantifier": "every depth, layout, matrix, image wider than eight pixels, destination length and stride", "why_tests_cant": "An out-of-slice store corrupts memory silently; a test that happens not to crash shows nothing.", "anchors": ["src/y_p16_to_rgb16.rs: yuv400_p16_to_rgbx_impl", "src/neon/y_p16_to_rgba16.rs: neon_y_p16_to_rgba16_row"]}
{"id": "C134", "title": "On 64-bit ARM the decoders of 10- to 16-bit planar images to RGB of the same depth write exactly their frame", "statement": "Every i010/i012/i014/i016 (and 4:2:2, 4:4:4) to 10- to 16-bit RGB decoder on AArch64 succeeds on a well-formed image and destination, whatever 16-bit words the planes hold, writes every pixel from its own samples only, leaves padding untouched, and treats byte order and bit packing as mere representation.", "quantifier": "every depth, layout, sampling, byte order, packing, range, matrix, size, stride, padding and content, with or without the RDM instructions", "why_tests_cant": "Sizes, strides and contents are unbounded; three paths per row (16, 8, the last one to eight pixels through buffers) and two kernels.", "anchors": ["src/neon/yuv_p16_to_rgba16.rs: neon_yuv_p16_to_rgba16_row, neon_yuv_p16_to_rgba16_row_rdm", "src/yuv_p16_rgba_p16.rs: WideRowAnyHandler"]}
{"id": "C135", "title": "On 64-bit ARM 10- to 16-bit images decode to the same RGB as elsewhere", "statement": "The RGB decoded on AArch64 from a 10- to 16-bit planar image is the portable one, or within two code values of it at 10 bits with the RDM instructions, and close to the ITU-R result.", "quantifier": "every depth, layout, sampling, byte order, packing, range, matrix and image, with or without the RDM instructions", "why_tests_cant": "The bound ranges over all sample triples of up to 16 bits each and all images.", "anchors": ["src/neon/yuv_p16_to_rgba16.rs: neon_yuv_p16_to_rgba16_row, neon_yuv_p16_to_rgba16_row_rdm", "src/yuv_p16_rgba_p16.rs: yuv_p16_to_image_p16_ant"]}
{"id": "C136", "title": "On 64-bit ARM the decoders of 10- and 12-bit semi-planar images to RGB of the same depth write exactly their frame", "statement": "Every P010/P012 style decoder to 10- or 12-bit RGB on AArch64 succeeds on a well-formed image and destination, whatever 16-bit words the planes hold, writes every pixel from its own luma and the chroma shown at it, leaves padding untouched, and treats byte order and bit packing as mere representation.", "quantifier": "both depths, every layout, sampling, chroma order, byte order, packing, range, matrix, size, stride, padding and content, with or without the RDM instructions", "why_tests_cant": "Sizes, strides and contents are unbounded; the columns are split between vector and portable code.", "anchors": ["src/neon/yuv_nv_p16_to_rgb.rs: neon_yuv_nv_p16_to_rgba_row, neon_yuv_nv_p16_to_rgba_row_rdm", "src/neon/yuv_nv_p10_to_rgba.rs: deinterleave_10_bit_uv", "src/yuv_nv_p16_to_rgb16.rs: yuv_nv_p16_to_image_impl"]}
{"id": "C137", "title": "On 64-bit ARM 10- and 12-bit semi-planar images decode to the same RGB as elsewhere", "statement": "The RGB decoded on AArch64 from a 10- or 12-bit semi-planar image is the portable one, or within two code values of it with the RDM instructions, and close to the ITU-R result; a row of one colour decodes to one colour.", "quantifier": "both depths, every layout, sampling, chroma order, byte order, packing, range, matrix and image, with or without the RDM instructions", "why_tests_cant": "The bound ranges over all sample triples and all images.", "anchors": ["src/neon/yuv_nv_p16_to_rgb.rs: neon_yuv_nv_p16_to_rgba_row, neon_yuv_nv_p16_to_rgba_row_rdm", "src/neon/yuv_nv_p10_to_rgba.rs: deinterleave_10_bit_uv", "src/yuv_nv_p16_to_rgb16.rs: yuv_nv_p16_to_image_impl"]}
{"id": "C138", "title": "On 64-bit ARM the encoders of 10- to 16-bit RGB to planar YCbCr write exactly their frame", "statement": "Encoding a well-formed 10- to 16-bit RGB(A) buffer into a well-formed planar image on AArch64 succeeds, writes exactly the luma samples of the image and the chroma samples covering it, each determined by its own pixels, and leaves padding untouched.", "quantifier": "every depth, layout, sampling, byte order, packing, range, matrix, size, stride, padding and content, with or without the RDM instructions", "why_tests_cant": "Sizes, strides and contents are unbounded; the columns are split between vector blocks, a padded tail block and a scalar last column.", "anchors": ["src/neon/rgb_to_yuv_p16.rs: neon_rgba_to_yuv_p16, neon_rgba_to_yuv_p16_rdm", "src/neon/rgb_to_yuv_p16_420.rs: neon_rgba_to_yuv_p16_420, neon_rgba_to_yuv_p16_rdm_420", "src/rgb16_to_yuv_p16.rs: rgbx_to_yuv_ant, RgbEncoder, RgbEncoder420"]}
{"id": "C139", "title": "On 64-bit ARM 10- to 16-bit RGB encodes to the same YCbCr as elsewhere", "statement": "The image encoded on AArch64 from 10- to 16-bit RGB holds the luma of every pixel and the chroma of the average colour of the pixels a sample covers, as the portable arithmetic computes them, up to one code value.", "quantifier": "every depth, layout, sampling, byte order, packing, range, matrix and image, with or without the RDM instructions", "why_tests_cant": "The bound ranges over all colours and all images.", "anchors": ["src/neon/rgb_to_yuv_p16.rs: neon_rgba_to_yuv_p16, neon_rgba_to_yuv_p16_rdm", "src/neon/rgb_to_yuv_p16_420.rs: neon_rgba_to_yuv_p16_420, neon_rgba_to_yuv_p16_rdm_420", "src/rgb16_to_yuv_p16.rs: rgbx_to_yuv_ant, RgbEncoder, RgbEncoder420"]}
{"id": "C140", "title": "On 64-bit ARM P010, P210 and P410 decode to exactly their frame of 8-bit RGB", "statement": "Decoding a well-formed P010, P210 or P410 image to 8-bit RGB(A) on AArch64 succeeds in every mode, writes exactly the pixels of the image, each a function of the three samples shown there and the same in every column, opaque, and leaves padding untouched.", "quantifier": "every mode, layout, sampling, byte order, range, matrix, size, stride, padding and content", "why_tests_cant": "Sizes, strides and contents are unbounded; the end of each row goes through padded stack buffers.", "anchors": ["src/neon/yuv_nv_p10_to_rgba.rs: neon_yuv_nv12_p10_to_rgba_row, deinterleave_10_bit_uv", "src/neon/yuv_nv_p10_to_rgba_prof.rs: neon_yuv_nv12_p10_to_rgba_row_prof", "src/yuv_nv_p10_to_rgb.rs: p010_to_rgb, p210_to_rgba, p410_to_bgra, yuv_nv_p10_to_image_impl"]}
{"id": "C141", "title": "On 64-bit ARM P010, P210 and P410 decode to the same 8-bit colours as elsewhere", "statement": "The 8-bit colours decoded on AArch64 from P010, P210 and P410 are those of the portable decoder up to one code value, and close to ITU-R.", "quantifier": "every mode, layout, sampling, byte order, range, matrix and image", "why_tests_cant": "The bound ranges over all triples of samples and all images.", "anchors": ["src/neon/yuv_nv_p10_to_rgba.rs: neon_yuv_nv12_p10_to_rgba_row, deinterleave_10_bit_uv", "src/neon/yuv_nv_p10_to_rgba_prof.rs: neon_yuv_nv12_p10_to_rgba_row_prof", "src/yuv_nv_p10_to_rgb.rs: p010_to_rgb, p210_to_rgba, p410_to_bgra, yuv_nv_p10_to_image_impl"]}
{"id": "C142", "title": "On 64-bit ARM 10- and 12-bit images with an alpha plane decode to exactly their frame of 8-bit RGBA", "statement": "Decoding a well-formed planar 10- or 12-bit image with an alpha plane to 8-bit RGBA on AArch64 succeeds for every width and content, writes exactly the pixels of the image, each a function of its column and of the samples and the alpha shown there, and leaves padding untouched.", "quantifier": "every depth, layout, sampling, byte order, packing, range, matrix, size, stride, padding and content", "why_tests_cant": "Sizes, strides and contents are unbounded, and the last one to eight columns are done by other code.", "anchors": ["src/neon/yuv_p16_to_rgba_alpha.rs: neon_yuv_p16_to_rgba_alpha_row", "src/yuv_p16_rgba_alpha.rs: i010_alpha_to_rgba, i010_be_alpha_to_rgba, i212_alpha_to_rgba, yuv_p16_to_image_alpha_ant"]}
{"id": "C143", "title": "On 64-bit ARM 10- and 12-bit images with an alpha plane keep colours and alpha in 8-bit RGBA", "statement": "The colours decoded on AArch64 are the correctly rounded ones up to one code value and the alpha is the upper eight bits of the alpha sample, whatever the column.", "quantifier": "every depth, layout, sampling, byte order, packing, range, matrix and image", "why_tests_cant": "The bound ranges over all triples of samples, all columns and all images.", "anchors": ["src/neon/yuv_p16_to_rgba_alpha.rs: neon_yuv_p16_to_rgba_alpha_row", "src/yuv_p16_rgba_alpha.rs: i010_alpha_to_rgba, i010_be_alpha_to_rgba, i212_alpha_to_rgba, yuv_p16_to_image_alpha_ant"]}
{"id": "C144", "title": "On 64-bit ARM 10- to 14-bit images with an alpha plane decode to exactly their frame of RGBA of the same depth", "statement": "Decoding a well-formed planar 10-, 12- or 14-bit image with an alpha plane to RGBA of the same depth on AArch64 succeeds for every width and content, writes exactly the pixels of the image, each a stated function of its column and of the samples and the alpha shown there, and leaves padding untouched.", "quantifier": "every depth, layout, sampling, byte order, packing, range, matrix, size, stride, padding and content, with and without rounding multiply-accumulate", "why_tests_cant": "Sizes, strides and contents are unbounded, and the last one to eight columns are done from copies by other code.", "anchors": ["src/neon/yuv_p16_to_rgba16_alpha.rs: neon_yuv_p16_to_rgba16_alpha_row, neon_yuv_p16_to_rgba16_alpha_row_rdm", "src/yuv_p16_rgba16_alpha.rs: i010_alpha_to_rgba10, i010_be_alpha_to_rgba10, i212_alpha_to_rgba12, i414_alpha_to_rgba14, yuv_p16_to_image_alpha_ant"]}
{"id": "C145", "title": "On 64-bit ARM 10- to 14-bit images with an alpha plane keep colours and alpha in RGBA of the same depth", "statement": "Every pixel decoded on AArch64 carries the alpha stored for it, and its colours are those of the portable decoder up to two code values, whatever the column.", "quantifier": "every depth, layout, sampling, byte order, packing, range, matrix and image", "why_tests_cant": "The bound ranges over all triples of samples, all columns and all images.", "anchors": ["src/neon/yuv_p16_to_rgba16_alpha.rs: neon_yuv_p16_to_rgba16_alpha_row, neon_yuv_p16_to_rgba16_alpha_row_rdm", "src/yuv_p16_rgba16_alpha.rs: i010_alpha_to_rgba10, i010_be_alpha_to_rgba10, i212_alpha_to_rgba12, i414_alpha_to_rgba14, yuv_p16_to_image_alpha_ant"]}
{"id": "C146", "title": "On 64-bit ARM P010 and P210 decode to exactly their frame of 30-bit RGB", "statement": "Decoding a well-formed P010 or P210 image to AR30 or RA30 on AArch64 succeeds for every width and content, writes exactly the pixels of the image, each the same function of the samples shown there in every column, and leaves padding untouched.", "quantifier": "every layout and byte order of the target, sampling, chroma order, byte order, range, matrix, size, stride, padding and content", "why_tests_cant": "Sizes, strides and contents are unbounded, and the last one to eight columns are done from copies by other code.", "anchors": ["src/neon/yuv_nv_p10_to_ar30.rs: neon_yuv_nv12_p10_to_ar30_row", "src/neon/ar30_utils.rs: vzipq_4_ar30", "src/yuv_nv_p10_to_ar30.rs: p010_to_ar30, p010_to_ra30, p210_to_ar30, p210_to_ra30, yuv_nv_p10_to_image_impl_d"]}
{"id": "C147", "title": "On 64-bit ARM P010 and P210 keep colours and opacity in 30-bit RGB", "statement": "Every pixel of 30-bit RGB decoded on AArch64 is opaque and holds the components of the portable decoder, up to one code value, in the fields of its layout.", "quantifier": "every layout, range, matrix and image", "why_tests_cant": "The bound ranges over all triples of samples and all images.", "anchors": ["src/neon/yuv_nv_p10_to_ar30.rs: neon_yuv_nv12_p10_to_ar30_row", "src/neon/ar30_utils.rs: vzipq_4_ar30", "src/yuv_nv_p10_to_ar30.rs: p010_to_ar30, p010_to_ra30, p210_to_ar30, p210_to_ra30, yuv_nv_p10_to_image_impl_d"]}
