{"id": "C01", "title": "Checked pixel access is safe and injective", "statement": "For a grayscale image whose layout fits its array, at(x,y) with x<width and y<height refers to exactly one array cell, different coordinates refer to different cells, a value written through at(x,y) is the value read back and no other pixel changes; at(x,y) outside the image throws and changes nothing.", "quantifier": "every image layout (owner or sub-image, any offset and stride), every coordinate pair of 32-bit values, every array content", "why_tests_cant": "Index arithmetic is 32-bit modular; tests sample a few shapes and cannot rule out a shape for which two pixels collide or an index leaves the array.", "anchors": ["boofcpp/src/boofcv/image_types.h: Gray::at, Gray::unsafe_at, Gray::index_of, ImageBase::isInBounds"]}
{"id": "C02", "title": "Constructing or reshaping an image yields a usable image of that shape", "statement": "Gray(w,h) and reshape(w,h) give an image of exactly w x h pixels, all of which can be read and written, provided w*h fits in 32 bits; reshape to the current shape changes nothing (also on a sub-image); any other reshape of a sub-image throws and changes nothing; the array is replaced by a zeroed one only if it is too small and otherwise its contents are kept.", "quantifier": "every previous image state, every requested width and height", "why_tests_cant": "Depends on the whole history of capacity vs. shape, and fails for products that wrap 2^32, which no test allocates.", "anchors": ["boofcpp/src/boofcv/image_types.h: Gray::Gray, Gray::reshape"]}
{"id": "C03", "title": "No history of image operations breaks the image", "statement": "Starting from any constructed image, after any sequence of reshape, copy-into, pixel writes and sub-image creation, every coordinate inside the current shape stays addressable and no operation in the history touches memory outside live arrays; each operation either succeeds or throws without effect.", "quantifier": "all finite sequences of operations with arbitrary arguments", "why_tests_cant": "The set of histories is infinite; the invariant linking shape, stride, offset and array length must be inductive.", "anchors": ["boofcpp/src/boofcv/image_types.h: Gray::reshape, Gray::copy, Gray::makeSubimage, Gray::at"]}
{"id": "C04", "title": "A sub-image is a window on its parent", "statement": "makeSubimage(x0,y0,x1,y1) throws exactly when the rectangle is not inside the image; otherwise the result has shape (x1-x0, y1-y0), its pixel (x,y) is the same storage as the parent's pixel (x0+x,y0+y), so writes through either are seen by both, and a sub-image of a sub-image is the sub-image of the composed rectangle.", "quantifier": "every image, every rectangle, every nesting depth", "why_tests_cant": "Aliasing through offset and stride for all rectangles and nestings cannot be enumerated.", "anchors": ["boofcpp/src/boofcv/image_types.h: Gray::makeSubimage"]}
{"id": "C05", "title": "copy makes the destination equal to the source and touches nothing else", "statement": "a.copy(b) leaves a with b's shape and pixel values, does not modify b, and when a is a sub-image does not modify any pixel of the parent outside a; it throws, changing nothing, exactly when a is a sub-image of another shape.", "quantifier": "all source and destination images (owners or sub-images, any stride) that do not overlap", "why_tests_cant": "Row-wise memcpy must be right for every combination of strides and offsets, including frame conditions on every cell not copied.", "anchors": ["boofcpp/src/boofcv/image_types.h: Gray::copy"]}
{"id": "C06", "title": "Copy assignment", "statement": "a = b gives an image with b's shape and pixel values; when b owns its pixels the two do not share storage afterwards; when b is a sub-image a becomes another view on the same pixels.", "quantifier": "all image pairs", "why_tests_cant": "Sharing versus copying is a property of all later writes.", "anchors": ["boofcpp/src/boofcv/image_types.h: Gray::operator="]}
{"id": "C07", "title": "Shape getters report the shape", "statement": "getWidth() is the number of columns and getHeight() is the number of rows.", "quantifier": "all images", "why_tests_cant": "Square test images hide a swapped dimension.", "anchors": ["boofcpp/src/boofcv/image_types.h: ImageBase::getWidth, ImageBase::getHeight, ImageBase::total_pixels"]}
{"id": "C08", "title": "Interleaved images: access, reshape and band changes", "statement": "In an interleaved image each (x,y,band) with band<number of bands has its own cell; reshape and setNumberOfBands give the requested shape with all cells addressable; sub-images refuse to change shape; out-of-range x or y throws.", "quantifier": "all layouts, all shapes, all band counts", "why_tests_cant": "Three-way index arithmetic over all sizes.", "anchors": ["boofcpp/src/boofcv/image_types.h: Interleaved::at, Interleaved::reshape, Interleaved::setNumberOfBands"]}
{"id": "C09", "title": "An interleaved sub-image is a window on its parent", "statement": "makeSubimage throws exactly when the rectangle is illegal; otherwise (x,y,band) of the result is the same cell as (x0+x,y0+y,band) of the parent.", "quantifier": "all interleaved images and rectangles", "why_tests_cant": "Aliasing for all rectangles.", "anchors": ["boofcpp/src/boofcv/image_types.h: Interleaved::makeSubimage"]}
{"id": "C10", "title": "Interleaved setTo copies every band value", "statement": "a.setTo(b) makes every (x,y,band) of a equal to b's, for every element type, and modifies no cell outside a.", "quantifier": "all shapes, strides, element widths", "why_tests_cant": "Only element types wider than one byte expose the byte count passed to memcpy, and only at particular pixels.", "anchors": ["boofcpp/src/boofcv/image_types.h: Interleaved::setTo"]}
{"id": "C11", "title": "Growable array: resize keeps the prefix and defaults the rest", "statement": "resize(n) leaves size n, keeps the first min(old,n) elements and sets every new element to the default value; it throws and changes nothing on an array that wraps foreign memory.", "quantifier": "all arrays, all sizes, all histories of resizes", "why_tests_cant": "Stale elements appear only after shrinking and growing within capacity.", "anchors": ["boofcpp/src/boofcv/base_types.h: GrowArray::resize, GrowArray::GrowArray"]}
{"id": "C12", "title": "Growable array: fill sets every element", "statement": "fill(v) makes every element in [0,size) equal to v and changes nothing else.", "quantifier": "all sizes, element types and values", "why_tests_cant": "memset works for zero, so the usual test value hides it.", "anchors": ["boofcpp/src/boofcv/base_types.h: GrowArray::fill"]}
{"id": "C13", "title": "Growable array: assignment, set and checked access", "statement": "a = b, a.setTo(list) and a.set(ptr,n) give a exactly the source's elements; at(i) throws exactly when i>=size, and reads after writes return what was written; arrays wrapping foreign memory throw instead of reallocating it; a capacity never shrinks.", "quantifier": "all arrays and lengths", "why_tests_cant": "All combinations of capacities and sizes.", "anchors": ["boofcpp/src/boofcv/base_types.h: GrowArray::operator=, GrowArray::setTo, GrowArray::set, GrowArray::at, GrowArray::grow_array"]}
{"id": "C14", "title": "A packed set behaves as a list of lists", "statement": "After any sequence of clear, start_new_set, push_tail, remove_tail and write_set, the number of sets, the size of each set, the size of the last one and every element are exactly those of a plain list of lists subjected to the same operations (push on an empty collection starts a set; removing from an empty one does nothing), for any positive block size.", "quantifier": "all finite operation sequences, all block sizes >= 1, while the element count stays below 2^32", "why_tests_cant": "Sets span block boundaries and blocks are reused after clear/remove; errors show only for particular interleavings of sizes.", "anchors": ["boofcpp/src/boofcv/packed_sets.h: PackedSet::start_new_set, push_tail, _add_element, remove_tail, clear, write_set"]}
{"id": "C15", "title": "Packed set reads return the stored elements and reject bad indexes", "statement": "at(s,e) returns element e of set s and throws exactly when s or e is out of range; load_set appends exactly the elements of the set in order to the output vector and throws exactly when s is out of range; neither modifies the collection.", "quantifier": "all reachable collections and all indexes", "why_tests_cant": "As above.", "anchors": ["boofcpp/src/boofcv/packed_sets.h: PackedSet::at, PackedSet::load_set"]}
{"id": "C16", "title": "write_set replaces one set only", "statement": "write_set(s,v) with matching length makes set s equal to v and leaves every other set unchanged; with a wrong length or index it throws and changes nothing.", "quantifier": "all reachable collections", "why_tests_cant": "Block-straddling sets next to each other.", "anchors": ["boofcpp/src/boofcv/packed_sets.h: PackedSet::write_set"]}
{"id": "C17", "title": "EXTENDED border returns the nearest pixel", "statement": "get(x,y) through the extended border returns the pixel at the coordinates clamped into the image, for every integer x and y.", "quantifier": "all non-empty images, all 32-bit signed coordinates", "why_tests_cant": "All coordinates incl. mixed signed/unsigned comparisons.", "anchors": ["boofcpp/src/boofcv/image_border.h: ImageBorder::get, ImageBorderExtend::adjust"]}
{"id": "C18", "title": "REFLECT border mirrors without repeating the edge pixel", "statement": "get(x,y) through the reflect border returns the pixel at the coordinates mirrored at the image edges, for every integer x and y.", "quantifier": "all images, all coordinates", "why_tests_cant": "Kernels wider than the image reach the failing range.", "anchors": ["boofcpp/src/boofcv/image_border.h: ImageBorderReflect::adjust"]}
{"id": "C19", "title": "WRAP border is periodic", "statement": "get(x,y) through the wrap border returns the pixel at coordinates modulo the image size, for every integer x and y.", "quantifier": "all images, all coordinates", "why_tests_cant": "Same.", "anchors": ["boofcpp/src/boofcv/image_border.h: ImageBorderWrap::adjust"]}
{"id": "C20", "title": "VALUE and ZERO borders", "statement": "get(x,y) returns the pixel inside the image and the constant outside; it never touches memory outside the image, for every coordinate. The factory builds for each border type the border of that type (zero meaning value 0) and throws for types it does not support.", "quantifier": "all images, all coordinates, all border types", "why_tests_cant": "All coordinates.", "anchors": ["boofcpp/src/boofcv/image_border.h: ImageBorderValue, FactoryImageBorder::create_SB"]}
{"id": "C21", "title": "fill sets exactly the image's pixels", "statement": "fill(image,v) sets every pixel of a grayscale image to v and no cell outside it (in particular no pixel of a parent image outside the sub-image).", "quantifier": "all images", "why_tests_cant": "All strides and offsets, frame condition.", "anchors": ["boofcpp/src/boofcv/image_misc_ops.h: ImageMiscOps::fill(Gray)"]}
{"id": "C22", "title": "fill_border sets exactly the frame", "statement": "fill_border(image,v,r) sets to v exactly the pixels closer than r to an edge, also when r exceeds the image size, and leaves all other pixels and cells unchanged.", "quantifier": "all images, values and radii", "why_tests_cant": "Overlapping bands for r near half the size.", "anchors": ["boofcpp/src/boofcv/image_misc_ops.h: ImageMiscOps::fill_border"]}
{"id": "C23", "title": "Interleaved fill sets exactly the image's cells", "statement": "fill on an interleaved image sets every (x,y,band) and nothing else.", "quantifier": "all interleaved images", "why_tests_cant": "Only sub-images expose ignored offset/stride.", "anchors": ["boofcpp/src/boofcv/image_misc_ops.h: ImageMiscOps::fill(Interleaved)"]}
{"id": "C24", "title": "fill_uniform draws every pixel and touches nothing else", "statement": "fill_uniform assigns one generated value to every pixel of the image, all within the requested range, and modifies no other cell.", "quantifier": "all images and generator outputs", "why_tests_cant": "Sub-images and all random streams.", "anchors": ["boofcpp/src/boofcv/image_misc_ops.h: ImageMiscOps::fill_uniform"]}
{"id": "C25", "title": "sum is the sum of the pixels", "statement": "sum(image) equals the mathematical sum of the image's pixels whenever that sum is representable in the sum type, reads only the image's pixels, and modifies nothing.", "quantifier": "all images, sub-images, integer pixel types", "why_tests_cant": "All strides, all contents.", "anchors": ["boofcpp/src/boofcv/image_statistics.h: ImageStatistics::sum"]}
{"id": "C26", "title": "min and max are attained bounds", "statement": "min/max of a non-empty image is a pixel value of that image and bounds all its pixels.", "quantifier": "all images incl. sub-images", "why_tests_cant": "Sub-images and negative contents.", "anchors": ["boofcpp/src/boofcv/image_statistics.h: ImageStatistics::min, ImageStatistics::max"]}
{"id": "C27", "title": "mean lies between min and max", "statement": "mean(image) is the pixel sum divided by the number of pixels rounded toward zero, hence between the smallest and largest pixel.", "quantifier": "all non-empty images, integer types", "why_tests_cant": "Signed images with negative sums.", "anchors": ["boofcpp/src/boofcv/image_statistics.h: ImageStatistics::mean"]}
{"id": "C28", "title": "histogram counts each value", "statement": "After histogram(image,min,h) entry k is the number of pixels equal to min+k, so the entries add up to the number of pixels, provided all pixels lie in [min,min+size).", "quantifier": "all images, all ranges", "why_tests_cant": "All contents and shapes.", "anchors": ["boofcpp/src/boofcv/image_statistics.h: ImageStatistics::histogram"]}
{"id": "C29", "title": "convert_average averages the bands", "statement": "Each output pixel is the average of the bands (rounded toward zero) and lies between the smallest and largest band value at that pixel; input unchanged.", "quantifier": "all interleaved images, band counts >= 1", "why_tests_cant": "Signed pixels with negative sums, all strides.", "anchors": ["boofcpp/src/boofcv/image_convert.h: ConvertImage::convert_average"]}
{"id": "C30", "title": "logicAnd / logicOr are pixelwise, also in place", "statement": "Output pixel is 1 when both (either) inputs are nonzero and 0 otherwise, inputs are unchanged unless output is the same image as an input, and in that case the result is the same as with separate storage.", "quantifier": "all images of equal shape, all aliasing choices output in {fresh, A, B, A=B}", "why_tests_cant": "In-place operation for all contents.", "anchors": ["boofcpp/src/boofcv/binary_ops.cpp: BinaryImageOps::logicAnd, logicOr"]}
{"id": "C31", "title": "erode4 / dilate4 compute the 4-neighbour erosion and dilation", "statement": "For a binary image every non-frame output pixel is 1 iff the pixel and its four neighbours are all 1 (erode) / any is 1 (dilate); the one-pixel frame of the output is not written; input unchanged; no access outside the image.", "quantifier": "all binary images of at least one row and column", "why_tests_cant": "All sizes and contents.", "anchors": ["boofcpp/src/boofcv/binary_ops.cpp: BinaryImageOps::erode4, dilate4"]}
{"id": "C32", "title": "Erosion and dilation are dual and ordered", "statement": "On non-frame pixels: erode(input) <= input <= dilate(input); eroding the complement is the complement of dilating; both are monotone in the input.", "quantifier": "all binary images", "why_tests_cant": "Relational statement over all image pairs.", "anchors": ["boofcpp/src/boofcv/binary_ops.cpp: BinaryImageOps::erode4, dilate4"]}
{"id": "C33", "title": "Global threshold is pixelwise and the two directions are complementary", "statement": "threshold(down) outputs 1 exactly where the pixel is <= the threshold, 0 elsewhere; threshold(up) outputs exactly the complement; input unchanged; output has the input's shape.", "quantifier": "all images, thresholds and totally ordered pixel types", "why_tests_cant": "All contents and strides.", "anchors": ["boofcpp/src/boofcv/binary_ops.h: ThresholdOps::threshold, GlobalFixedBinaryFilter"]}
{"id": "C34", "title": "Otsu's threshold maximises the between-class variance", "statement": "For every histogram, the standard Otsu computation returns a histogram index that maximises the between-class variance over all splits with both classes non-empty (0 if there is no such split).", "quantifier": "all histograms (exact arithmetic)", "why_tests_cant": "Optimality over all histograms.", "anchors": ["boofcpp/src/boofcv/binary_ops.cpp: ComputeOtsu::compute, ComputeOtsu::computeOtsu"]}
{"id": "C35", "title": "Global Otsu does not depend on the chosen value range offset", "statement": "Adding a constant to all pixels and to min/max leaves the binary result of the global Otsu filter unchanged.", "quantifier": "all images, all offsets", "why_tests_cant": "Tests use min 0.", "anchors": ["boofcpp/src/boofcv/binary_ops.h: ThresholdOps::computeOtsu, GlobalOtsuBinaryFilter::process"]}
{"id": "C36", "title": "localMean compares each pixel to the local mean", "statement": "Each output pixel is decided by comparing the pixel to the scaled blurred image at the same place; the input is unchanged; a region width that gives radius 0 throws.", "quantifier": "all images, widths, scales", "why_tests_cant": "All shapes incl. wide flat images.", "anchors": ["boofcpp/src/boofcv/binary_ops.h: ThresholdOps::localMean"]}
{"id": "C37", "title": "Block filters partition the image", "statement": "The blocks chosen by the block-threshold filters cover every pixel exactly once, the number of blocks equals the size of the statistics image, every block is at least the requested size, and the statistics of a block are computed from exactly the pixels the block thresholds.", "quantifier": "all image sizes and requested block sizes with 1 <= requested <= min(width,height)", "why_tests_cant": "Remainder blocks at the right/bottom for all size combinations.", "anchors": ["boofcpp/src/boofcv/threshold_block_filters.h: ThresholdBlockCommon::process, selectBlockSize, applyThreshold, computeStatistics"]}
{"id": "C38", "title": "Block filters reject bad input without touching the output", "statement": "process throws exactly when the shapes differ or the requested block exceeds the image, and then writes nothing.", "quantifier": "all inputs", "why_tests_cant": "All shape pairs.", "anchors": ["boofcpp/src/boofcv/threshold_block_filters.h: ThresholdBlockCommon::process"]}
{"id": "C39", "title": "Block mean threshold", "statement": "Each output pixel is 1 iff the pixel is <= (down) / > (up) the average of the block statistics in the 3x3 block neighbourhood clipped to the grid (or its own block); down and up results are complementary; all pixels are written; nothing else is modified.", "quantifier": "all images, block sizes, modes", "why_tests_cant": "All block geometries.", "anchors": ["boofcpp/src/boofcv/threshold_block_filters.h: ThresholdBlockMean"]}
{"id": "C40", "title": "Block min-max threshold", "statement": "Each output pixel is determined by the min/max over the local blocks: 1 where the spread does not exceed the texture limit, otherwise by comparison with the scaled mid-value; all output values are 0 or 1.", "quantifier": "all images, block sizes, modes", "why_tests_cant": "All geometries.", "anchors": ["boofcpp/src/boofcv/threshold_block_filters.h: ThresholdBlockMinMax"]}
{"id": "C41", "title": "Block Otsu threshold", "statement": "The histogram used for a block is the exact histogram of the pixels in the local blocks; output pixel is 1 iff pixel <= (down) / > (up) the Otsu threshold of that histogram.", "quantifier": "all 8-bit images, block sizes, modes; images of floating point numbers after their pixels have been converted to 8 bits, which is possible exactly when all of them are between -1 and 256", "why_tests_cant": "All geometries.", "anchors": ["boofcpp/src/boofcv/threshold_block_filters.h: ThresholdBlockOtsu"]}
{"id": "C42", "title": "Kernel construction and element access", "statement": "A kernel constructed with width w and offset o has o<w (otherwise construction throws), w (or w*w) addressable coefficients equal to the given list; checked access throws exactly out of range.", "quantifier": "all widths, offsets, lists", "why_tests_cant": "All sizes.", "anchors": ["boofcpp/src/boofcv/convolve_kernels.h: KernelBase, Kernel1D, Kernel2D"]}
{"id": "C43", "title": "Box kernels", "statement": "table1D(w) has all coefficients 1 and sum w; mean1D normalised kernel has sum 1 for floating element types (exact arithmetic) and is the table kernel for integers.", "quantifier": "all widths", "why_tests_cant": "All sizes.", "anchors": ["boofcpp/src/boofcv/convolve_kernels.h: FactoryKernel::table1D, FactoryKernel::mean1D"]}
{"id": "C44", "title": "normalize makes the coefficients sum to one", "statement": "After normalize a floating kernel's coefficients sum to one (exact arithmetic) and keep their ratios, 1D and 2D, if the sum was non-zero.", "quantifier": "all kernels with non-zero sum", "why_tests_cant": "Gaussian kernels are already normalised, hiding a partial loop.", "anchors": ["boofcpp/src/boofcv/convolve_kernels.h: FactoryKernel::normalize"]}
{"id": "C45", "title": "Gaussian kernels are symmetric, positive and normalised", "statement": "gaussian1D coefficients are positive, symmetric about the centre, decrease away from it and sum to one in exact arithmetic; gaussian2D is the outer product.", "quantifier": "all sigmas > 0 and widths >= 1", "why_tests_cant": "All widths and sigmas.", "anchors": ["boofcpp/src/boofcv/convolve_kernels.h: FactoryKernel::gaussian1D, gaussian2D"]}
{"id": "C46", "title": "Integer kernels are bounded and keep order and symmetry", "statement": "Converting a floating kernel to integer yields coefficients of magnitude at most 100 that preserve sign, order and symmetry; the largest coefficient is non-zero.", "quantifier": "all kernels with a non-zero coefficient (exact arithmetic)", "why_tests_cant": "All kernels.", "anchors": ["boofcpp/src/boofcv/convolve_kernels.h: FactoryKernel::float_to_int"]}
{"id": "C47", "title": "Horizontal convolution equals its definition", "statement": "ConvolveImage::horizontal writes at every pixel the sum over k of kernel[k] times the border-extended input at (x-offset+k, y), whatever the ratio of kernel and image size; the input is unchanged and nothing but the output's pixels is written.", "quantifier": "all images, kernels, offsets, borders; any arithmetic with commutative multiplication (so also bit-exact for floats)", "why_tests_cant": "Inner/border split for every combination of sizes and offsets.", "anchors": ["boofcpp/src/boofcv/convolve.h: ConvolveImage::horizontal, ConvolveImage_Inner::horizontal, ConvolveImage_Border::horizontal"]}
{"id": "C48", "title": "Vertical convolution equals its definition", "statement": "Same for ConvolveImage::vertical with (x, y-offset+k).", "quantifier": "as above", "why_tests_cant": "As above.", "anchors": ["boofcpp/src/boofcv/convolve.h: ConvolveImage::vertical, ConvolveImage_Inner::vertical, ConvolveImage_Border::vertical"]}
{"id": "C49", "title": "2D convolution equals its definition", "statement": "Same for the two-dimensional convolution with a square kernel.", "quantifier": "as above", "why_tests_cant": "As above.", "anchors": ["boofcpp/src/boofcv/convolve.h: ConvolveImage::convolve, ConvolveImage_Inner::convolve, ConvolveImage_Border::convolve"]}
{"id": "C50", "title": "Optimised and naive convolution agree exactly", "statement": "ConvolveImage and ConvolveNaive produce identical output (bit-exact, including floats, as the summation order is the same) for the same arguments.", "quantifier": "all images, kernels, offsets, borders, element types", "why_tests_cant": "Equality over all sizes.", "anchors": ["boofcpp/src/boofcv/convolve.h: ConvolveNaive, ConvolveImage"]}
{"id": "C51", "title": "Normalised convolution equals its definition", "statement": "ConvolveNormalized writes at every pixel the kernel-weighted average over the part of the kernel inside the image, for every ratio of kernel and image size, and agrees with the naive implementation.", "quantifier": "all images, kernels whose partial weights are non-zero", "why_tests_cant": "Border arithmetic for all offsets.", "anchors": ["boofcpp/src/boofcv/convolve.h: ConvolveNormalized, ConvolveNormalizedNaive, ConvolveNormalized_JustBorder"]}
{"id": "C52", "title": "Normalised convolution preserves constants and range", "statement": "With non-negative integer coefficients whose partial sums are positive, a constant image stays constant and every output pixel lies between the smallest and largest input pixel under the kernel.", "quantifier": "all images and kernels", "why_tests_cant": "All contents.", "anchors": ["boofcpp/src/boofcv/convolve.h: ConvolveNormalized, ConvolveNormalizedNaive"]}
{"id": "C53", "title": "Naive normalised convolution treats rows and columns alike", "statement": "Transposing the input and convolving vertically gives the transpose of the horizontal convolution.", "quantifier": "all images and kernels", "why_tests_cant": "Only coefficients outside the pixel range expose narrowing.", "anchors": ["boofcpp/src/boofcv/convolve.h: ConvolveNormalizedNaive::horizontal, vertical"]}
{"id": "C54", "title": "Mean blur equals the local average", "statement": "ConvolveImageMean horizontal/vertical and BlurImageOps::mean write at every pixel the rounded average of the pixels within the radius that lie inside the image, for every image size and radius>=1; radius 0 throws.", "quantifier": "all images and radii", "why_tests_cant": "Sliding-window updates for all sizes; flat or narrow images.", "anchors": ["boofcpp/src/boofcv/image_blur.h: ConvolveImageMean, BlurImageOps::mean"]}
{"id": "C55", "title": "Gaussian blur is the separable normalised convolution", "statement": "BlurImageOps::gaussian equals horizontal followed by vertical normalised convolution with the Gaussian kernel.", "quantifier": "all images", "why_tests_cant": "All shapes.", "anchors": ["boofcpp/src/boofcv/image_blur.h: BlurImageOps::gaussian"]}
{"id": "C56", "title": "Length configuration", "statement": "A fixed length yields that length; a relative length yields the larger of fraction*total and the minimum; computeI rounds to nearest and is never negative for a configuration that passes checkValidity; checkValidity throws exactly when neither is set.", "quantifier": "all lengths, fractions, totals (exact arithmetic)", "why_tests_cant": "All values.", "anchors": ["boofcpp/src/boofcv/config_types.cpp: ConfigLength::compute, computeI, checkValidity"]}
{"id": "C57", "title": "Squared point distance", "statement": "distance_sq is the squared Euclidean distance, symmetric, zero iff points coincide, and never overflows for 8-bit coordinates.", "quantifier": "all points", "why_tests_cant": "All coordinate pairs incl. overflow.", "anchors": ["boofcpp/src/boofcv/geometry_types.h: Point2D"]}
{"id": "C58", "title": "Shape checks", "statement": "checkSameShape returns normally exactly when all shapes agree and otherwise throws.", "quantifier": "all shape tuples", "why_tests_cant": "All tuples.", "anchors": ["boofcpp/src/boofcv/sanity_checks.cpp: checkSameShape"]}
{"id": "C59", "title": "Contour tracing terminates", "statement": "Tracing a contour from a start pixel as the labelling algorithm does (external: pixel above is white; internal: pixel below is white) always terminates, for both connectivity rules.", "quantifier": "all binary images, all such start pixels", "why_tests_cant": "The loop exits only on returning to its initial state; non-termination needs a particular shape.", "anchors": ["boofcpp/src/boofcv/contour.cpp: ContourTracer::trace, searchBlack4, searchBlack8"]}
{"id": "C60", "title": "Contour tracing stays inside and only marks", "statement": "Tracing never accesses memory outside the images, never changes a black pixel, marks only white neighbours of traced pixels, and assigns the label only to traced black pixels, all of which are connected to the start.", "quantifier": "all binary images with a white frame", "why_tests_cant": "All shapes.", "anchors": ["boofcpp/src/boofcv/contour.cpp: ContourTracer::trace, checkBlack, add"]}
{"id": "C61", "title": "Contours are closed chains of adjacent pixels", "statement": "Consecutive contour points (cyclically) are neighbours under the rule; the first point is the start pixel; every point is black.", "quantifier": "all images", "why_tests_cant": "All shapes.", "anchors": ["boofcpp/src/boofcv/contour.cpp: ContourTracer::trace, ContourTracer::add"]}
{"id": "C62", "title": "Labels are exactly the connected components", "statement": "After process: label 0 exactly on background; two foreground pixels have the same label iff they are connected under the rule; labels are 1..n without gaps where n is the number of contours returned; labels are numbered in raster order of each component's first pixel.", "quantifier": "all binary images, both rules", "why_tests_cant": "Topological statement about all images.", "anchors": ["boofcpp/src/boofcv/contour.cpp: LinearContourLabelChang2004::process, handleStep1, handleStep2, handleStep3"]}
{"id": "C63", "title": "Each boundary is traced exactly once", "statement": "Every component gets exactly one external contour, and every boundary between a component and a background region is traced exactly once.", "quantifier": "all binary images, both rules", "why_tests_cant": "Topological.", "anchors": ["boofcpp/src/boofcv/contour.cpp: LinearContourLabelChang2004::process"]}
{"id": "C64", "title": "Contour size limits", "statement": "Every stored contour is either empty or has at least the minimum and fewer than the maximum number of points; with internal contours disabled internal contours are empty.", "quantifier": "all images and limits", "why_tests_cant": "All shapes and limits.", "anchors": ["boofcpp/src/boofcv/contour.cpp: handleStep1, handleStep2"]}
{"id": "C65", "title": "Reusing a labeller does not change results", "statement": "process gives the same labels and contours whether the object is fresh or was used on any sequence of other images before.", "quantifier": "all histories of images", "why_tests_cant": "Internal frame is only reset when the size changes.", "anchors": ["boofcpp/src/boofcv/contour.cpp: LinearContourLabelChang2004::process"]}
{"id": "C66", "title": "Contour bookkeeping", "statement": "The external and internal set indexes of all contours are pairwise distinct and are exactly 0..number_of_sets-1; contour ids are 1..n in order.", "quantifier": "all images", "why_tests_cant": "All shapes.", "anchors": ["boofcpp/src/boofcv/contour.cpp: handleStep1, handleStep2", "boofcpp/src/boofcv/contour.h: ContourPacked"]}
{"id": "C67", "title": "Contour processing errors are reported", "statement": "process never throws out-of-range internally nor accesses invalid memory for a binary image of any size whose padded size fits, including empty images.", "quantifier": "all binary images incl. 0 x n", "why_tests_cant": "All shapes.", "anchors": ["boofcpp/src/boofcv/contour.cpp: LinearContourLabelChang2004::process"]}
{"id": "C68", "title": "Packed contours survive the transfer to Java", "statement": "Decoding the arrays handed to Java (blocks of interleaved x,y and per-set block/offset/size) returns the same points as the native collection.", "quantifier": "all collections", "why_tests_cant": "Block-straddling sets.", "anchors": ["boofcpp-jni/src/main/cpp/JNIBoofCPP.cpp: copy_into_java"]}
{"id": "C69", "title": "Otsu2 returns the mid-point of the class means", "statement": "The second Otsu variant returns the mid-point between the mean levels of the two classes of the split with maximal between-class variance, rounded to the nearest level, and this is a level of the histogram; 0 if all pixels have the same level.", "quantifier": "all histograms (exact arithmetic)", "why_tests_cant": "All histograms, including empty levels and ties.", "anchors": ["boofcpp/src/boofcv/binary_ops.cpp: ComputeOtsu::computeOtsu2, ComputeOtsu::compute"]}
{"id": "C70", "title": "A picture given by rows has exactly these pixels", "statement": "Constructing an image from nested rows of equal length gives an image of that size whose pixel (x,y) is entry x of row y, in memory of its own; rows of different length make the constructor throw.", "quantifier": "all lists of rows whose size fits", "why_tests_cant": "Any number and length of rows, unequal row anywhere.", "anchors": ["boofcpp/src/boofcv/image_types.h: Gray(std::initializer_list<std::initializer_list<T>>)"]}
{"id": "C71", "title": "Kernel extrema", "statement": "element_max/min/abs_max/abs_min return a coefficient (its magnitude) such that no other is larger/smaller; a kernel without coefficients makes them throw.", "quantifier": "all kernels, integer and floating point", "why_tests_cant": "All coefficient lists.", "anchors": ["boofcpp/src/boofcv/convolve_kernels.h: KernelBase::element_max, element_min, element_abs_max, element_abs_min"]}
{"id": "C72", "title": "Every pixel array is released exactly once", "statement": "A program that makes, reshapes, copies, assigns, views and destroys images in any order has, when all its images are gone, released every array it made, and none twice.", "quantifier": "all histories of operations on any number of images", "why_tests_cant": "Any interleaving of operations and exceptions.", "anchors": ["boofcpp/src/boofcv/image_types.h: Gray::~Gray, Gray::reshape, Gray::setTo, Gray::operator=, Gray::makeSubimage"]}
{"id": "C73", "title": "Planar images are independent bands of one size", "statement": "A planar image has the requested number of bands, each of the image's size in memory of its own; storing a pixel through one band changes no other band; reshape gives all bands the new size; a band that does not exist makes getBand throw; destroying the image releases all bands.", "quantifier": "all sizes and numbers of bands", "why_tests_cant": "Any number of bands and sequence of reshapes; the destructor deletes the wrong pointer.", "anchors": ["boofcpp/src/boofcv/image_types.h: Planar"]}
{"id": "C74", "title": "Calls from Java do what the native function does", "statement": "A thresholding, blurring or convolution call through JNI on Java images (whole images or sub-images) makes the output image show exactly the picture the native function defines, changes no other Java array, and leaves no Java array pinned, whether or not the virtual machine hands out copies of arrays.", "quantifier": "all Java images and sub-images, pinning or copying virtual machines", "why_tests_cant": "The virtual machine may pin or copy; every image layout.", "anchors": ["boofcpp-jni/src/main/cpp/JNIBoofCPP.cpp: wrapCriticalGrayU8 etc.", "boofcpp-jni/src/main/cpp/NativeGlobalFixed.cpp: nativeprocess", "boofcpp-jni/src/main/cpp/NativeBlockOtsu.cpp: nativeprocess", "boofcpp-jni/src/main/cpp/NativeImageConvolveNormalized.cpp", "boofcpp-jni/src/main/cpp/NativeImageBlurOps.cpp", "boofcpp-jni/src/main/cpp/NativeImageConvolve.cpp"]}
{"id": "C75", "title": "Otsu tuning selects fewer pixels in low texture", "statement": "With any tuning, scale and direction the Otsu threshold is the threshold of the best split, moved by the documented penalty (zero without tuning), scaled and rounded to the nearest integer; tuning never selects a pixel which would not be selected without it; the result is undefined only if the penalty or the threshold does not fit an int.", "quantifier": "all histograms, tunings, non-negative scales, both directions and both variants (exact arithmetic)", "why_tests_cant": "Direction and size of the penalty for all histograms.", "anchors": ["boofcpp/src/boofcv/binary_ops.cpp: ComputeOtsu::compute"]}
{"id": "C76", "title": "The contour finder gives Java the contours of the picture", "statement": "Calling the contour finder from Java on a picture of zeros and ones labels the connected components, returns one contour per component with consecutive ids, assigns every set of points to exactly one contour as external or internal, and the points Java reads from the packed arrays walk once around the boundary they belong to; nothing stays pinned and only the label image and the finder's own storage change, however often the finder is used.", "quantifier": "all binary pictures as Java images or sub-images, all settings and histories of the finder, pinning or copying virtual machines", "why_tests_cant": "All pictures, histories and virtual machine behaviours.", "anchors": ["boofcpp-jni/src/main/cpp/NativeChang2004.cpp: native_process", "boofcpp-jni/src/main/cpp/JNIBoofCPP.cpp: WrapJGrowQueue_I32", "boofcpp-jni/src/main/java/org/boofcpp/contour/NativeChang2004.java: process, addContour"]}
{"id": "C77", "title": "Settings of the contour finder survive", "statement": "The getters of the contour finder return from Java exactly the value set last, or the defaults (4-connected, limits 0 and 2147483647, internal contours kept), whatever has been processed in between; unknown connection rules are refused.", "quantifier": "all histories of setters and calls, all 32-bit values", "why_tests_cant": "All interleavings and values including negative ones.", "anchors": ["boofcpp-jni/src/main/cpp/NativeChang2004.cpp: native_init, setMinContour, getMinContour, setMaxContour, getMaxContour, setSaveInnerContour, isSaveInternalContours, setConnectRule, getConnectRule"]}
{"id": "C78", "title": "Choosing sigma and radius are inverse", "statement": "The radius chosen for a sigma is the smallest whose kernel is at least 5+0.8*order sigmas wide, the sigma chosen for a radius is the one whose kernel has exactly that width, and choosing a sigma for a radius and a radius for that sigma gives the radius back; arguments that are not positive throw.", "quantifier": "all positive sigmas and radii, all derivative orders (exact arithmetic)", "why_tests_cant": "All values.", "anchors": ["boofcpp/src/boofcv/convolve_kernels.h: FactoryKernel::sigmaForRadius, FactoryKernel::radiusForSigma"]}
{"id": "C79", "title": "Reshaping and filling kernels", "statement": "Reshaping a kernel gives it the requested width, offset and number of coefficients and keeps the coefficients present before and after; filling a kernel with random numbers sets every coefficient to a number drawn from the distribution and keeps its shape.", "quantifier": "all kernels, widths, offsets and sequences of random numbers", "why_tests_cant": "All sizes and sequences.", "anchors": ["boofcpp/src/boofcv/convolve_kernels.h: Kernel1D::reshape, Kernel2D::reshape, KernelOps::fill_uniform"]}
{"id": "C80", "title": "Convolution from Java uses the Java kernel and border", "statement": "When Java convolves an image natively, every output pixel is the sum of the Java kernel's coefficients times the pixels which the Java border shows, converted to the output type (normalised convolution: the weighted average of the pixels inside the image); nothing else in any Java array changes and nothing stays pinned. Borders, image types and kernels that are not supported are rejected with an exception that leaves every array as it was.", "quantifier": "all Java images, kernels, origins, borders, output types and array pinning behaviours", "why_tests_cant": "All kernels, pictures and borders.", "anchors": ["boofcpp-jni/src/main/cpp/NativeImageConvolve.cpp: nativeHorizontal, nativeVertical, nativeConvolve, borderJavaToCpp", "boofcpp-jni/src/main/cpp/NativeImageConvolveNormalized.cpp: nativehorizontal, nativevertical", "boofcpp-jni/src/main/cpp/JNIBoofCPP.cpp: extractKernel1D_S32, extractKernel1D_F32, extractKernel2D_S32, extractKernel2D_F32", "boofcpp-jni/src/main/java/org/boofcpp/convolve/NativeConvolveImage.java: borderToType"]}
{"id": "C81", "title": "Blurring from Java uses the requested radius and sigma", "statement": "When Java blurs an image natively, the kernel has 2*radius+1 coefficients if a radius is given and the width chosen from sigma otherwise; the standard deviation is sigma if given and chosen from the radius otherwise; the output shows the blurred picture and no array but output and storage changes.", "quantifier": "all Java images, radii and standard deviations", "why_tests_cant": "All radii and pictures.", "anchors": ["boofcpp-jni/src/main/cpp/NativeImageBlurOps.cpp: nativeMean, nativeGaussian", "boofcpp-jni/src/main/java/org/boofcpp/convolve/NativeImageBlurOps.java: processMean, processGaussian"]}
{"id": "C82", "title": "A threshold filter made from Java does what its parameters say over its whole life", "statement": "A threshold filter constructed from Java marks exactly the pixels its constructor arguments say (threshold, direction, block size, scale, spread, tuning), in every call of process, whatever images and sizes it was used with before; constructing, using and finalizing it changes nothing else Java can see, leaves nothing pinned and has no undefined behaviour.", "quantifier": "for all parameters in the stated ranges, all sequences of calls of process on images of any sizes and contents, and whether or not the virtual machine copies arrays", "why_tests_cant": "a test uses a few filters a few times; the claim is about every history of calls and every parameter, including values between two grey levels", "anchors": ["boofcpp-jni/src/main/cpp/NativeGlobalFixed.cpp", "boofcpp-jni/src/main/cpp/NativeGlobalOtsu.cpp", "boofcpp-jni/src/main/cpp/NativeLocalMean.cpp", "boofcpp-jni/src/main/cpp/NativeBlockMean.cpp", "boofcpp-jni/src/main/cpp/NativeBlockMinMax.cpp", "boofcpp-jni/src/main/cpp/NativeBlockOtsu.cpp", "boofcpp/src/boofcv/threshold_block_filters.h"]}
{"id": "C83", "title": "Blurring keeps constants and range", "statement": "Blurring an image with the mean or with a Gaussian gives an image of the same shape in which every pixel lies between the smallest and the largest pixel of the input in the square the blur looks at; in particular a constant image stays constant.", "quantifier": "all images, radii, kernel sizes and standard deviations", "why_tests_cant": "All contents, sizes and kernels; rounding and conversion could overflow for some content only.", "anchors": ["boofcpp/src/boofcv/image_blur.h: BlurImageOps::mean, BlurImageOps::gaussian", "boofcpp/src/boofcv/convolve.h: ConvolveImageMean, ConvolveNormalized"]}
{"id": "C84", "title": "Rounding errors of float filters stay within bounds", "statement": "Convolving or blurring a floating point image, with every multiplication, addition and division rounded to the nearest number of the format, gives every pixel up to an explicit error bound relative to the exact result: about (kernel size)*2^-24 of the sum of the magnitudes for float, and for the running sums of the mean blur proportional to the distance from the edge. Nothing overflows while the bounds stay below the largest number, and the pixels that are read do not depend on rounding.", "quantifier": "all images, kernels, radii and roundings of the given precision (float and double as instances)", "why_tests_cant": "All contents and sizes; errors accumulate along rows and cannot be found by sampling.", "anchors": ["boofcpp/src/boofcv/convolve.h: ConvolveImage, ConvolveNormalized", "boofcpp/src/boofcv/image_blur.h: ConvolveImageMean, BlurImageOps::mean"]}
{"id": "C85", "title": "Loading the native library leaves nothing behind", "statement": "Whatever calls are made to load the native library, in whatever order, and whichever operations of the disk fail or are cut short: at the end of the virtual machine the file system is as it would be without the calls; on POSIX systems no file is left after any call; and a crash at any moment leaves all existing files and directories as they were.", "quantifier": "all sequences of calls, failing operations, contents of the jar, and moments of a crash", "why_tests_cant": "Every combination of failures at every step, and every crash point.", "anchors": ["boofcpp-jni/src/main/java/cz/adamh/utils/NativeUtils.java: loadLibraryFromJar, _loadLibraryFromJar, copy, createTempDirectory", "boofcpp-jni/src/main/java/org/boofcpp/BoofCPP.java: static initialiser"]}
{"id": "C86", "title": "The right native library is loaded", "statement": "What is loaded from the jar is a resource with the name of the library, all its bytes in order however the stream cuts them, and only if loading is reported. At start the library of the system path is taken, otherwise the first loadable one in the documented order of places; if there is none a message is printed and the program goes on.", "quantifier": "all contents of the disk and the jar, all ways in which reads cut the stream", "why_tests_cant": "All streams and all combinations of places.", "anchors": ["boofcpp-jni/src/main/java/cz/adamh/utils/NativeUtils.java: loadLocalPath, loadLibraryFromJar, copy", "boofcpp-jni/src/main/java/org/boofcpp/BoofCPP.java: static initialiser"]}
{"id": "C87", "title": "Printing shows every pixel and coefficient", "statement": "Printing an image or a kernel prints its size and every pixel or coefficient in its place and changes nothing; for integral types of at most 32 bits two images which print alike are equal, and kernels which print alike have the same coefficients. Printing the difference of two images marks exactly the pixels which differ by more than the tolerance.", "quantifier": "all images, kernels, contents and tolerances", "why_tests_cant": "Injectivity is a claim about all pairs of images.", "anchors": ["boofcpp/src/boofcv/print_structures.h: print, print_kernel, print_difference"]}
{"id": "C88", "title": "The comparison helpers of the tests compare what they say", "statement": "check_equals passes exactly if both images have the same shape and no two pixels in the same place differ by more than the tolerance; the border and inner variants look at exactly the pixels of the frame and of the rest, so that together they say the same as check_equals; none of them changes anything.", "quantifier": "all images, tolerances and frames", "why_tests_cant": "A helper which misses some pixels makes tests pass; only a statement about all images excludes it.", "anchors": ["boofcpp/src/boofcv/testing_utils.h: check_equals, check_equals_border, check_equals_inner"]}
{"id": "C89", "title": "Sub-images made for tests", "statement": "create_subimage returns a window of the same shape and content as the given image, with gaps between its rows, in memory of its own; the given image is not changed.", "quantifier": "all images for which the larger image fits into 32 bits", "why_tests_cant": "All sizes and contents.", "anchors": ["boofcpp/src/boofcv/testing_utils.h: create_subimage"]}
{"id": "C90", "title": "Convolution is linear", "statement": "Convolving a weighted sum of two images, horizontally, vertically or in two dimensions, gives the same weighted sum of the two results (exact arithmetic; borders which show pixels of the image or zeros).", "quantifier": "all images, weights, kernels, origins and these borders", "why_tests_cant": "All images and kernels.", "anchors": ["boofcpp/src/boofcv/convolve.h: ConvolveImage::horizontal, ConvolveImage::vertical, ConvolveImage::convolve"]}
{"id": "C91", "title": "Impulse kernels shift the picture", "statement": "Convolving with a kernel whose only non-zero coefficient is a one shifts the picture by the distance of that coefficient from the origin, and what moves in is what the border shows; a one at the origin copies the picture.", "quantifier": "all images, kernel widths, origins, positions and borders", "why_tests_cant": "All sizes and positions.", "anchors": ["boofcpp/src/boofcv/convolve.h: ConvolveImage::horizontal, ConvolveImage::vertical, ConvolveImage::convolve"]}
{"id": "C92", "title": "Separable kernels and products of kernels", "statement": "Convolving with a two-dimensional kernel that is the product of a row and a column gives the same image as convolving horizontally with the row and then vertically with the column; on a wrapping picture two convolutions are one with the product of the kernels.", "quantifier": "all images, kernels and borders which show pixels of the image or zeros; integral pixels while no sum overflows", "why_tests_cant": "All images and kernels, including every overlap of the kernel with the edges.", "anchors": ["boofcpp/src/boofcv/convolve.h: ConvolveImage::horizontal, ConvolveImage::vertical, ConvolveImage::convolve"]}
{"id": "C93", "title": "The mean blur is the normalised box convolution", "statement": "Blurring rows or columns with the running sum of the mean blur leaves exactly the same memory as the normalised convolution with a kernel of equal coefficients.", "quantifier": "all images and radii", "why_tests_cant": "Running sums could drift apart from sums of windows only for some contents and sizes.", "anchors": ["boofcpp/src/boofcv/image_blur.h: ConvolveImageMean", "boofcpp/src/boofcv/convolve.h: ConvolveNormalized"]}
{"id": "C94", "title": "Thresholding and finding contours work together", "statement": "Selecting pixels with a threshold and then running the contour finder on the result labels exactly the connected components of the selected pixels of the original image, returns one contour per component and the boundaries of these components, whatever the contour finder was used for before, and changes no other image. A less strict threshold only adds pixels and merges regions.", "quantifier": "all images, thresholds, directions, connection rules, limits and histories of the contour finder", "why_tests_cant": "All pictures and histories; the two parts share memory and must not disturb each other.", "anchors": ["boofcpp/src/boofcv/binary_ops.h: threshold", "boofcpp/src/boofcv/contour.cpp: LinearContourLabelChang2004::process"]}
{"id": "C95", "title": "Internal contours are holes", "statement": "The internal sets of points of a contour are one for each hole which its shape surrounds: a hole is a region of the background which does not lead to the outside of the picture, each hole is surrounded by exactly one shape, the number of contours is the number of connected components and the number of sets of points is the number of components and holes together.", "quantifier": "all binary pictures, both connection rules, all histories of the contour finder", "why_tests_cant": "A statement about every picture, including holes within shapes within holes; it needs the separation of the plane by boundaries.", "anchors": ["boofcpp/src/boofcv/contour.cpp: LinearContourLabelChang2004::process", "boofcpp/src/boofcv/contour.h: ContourPacked"]}
{"id": "C96", "title": "Contours of related pictures", "statement": "The components for four neighbours are parts of those for eight; making more pixels black only merges components; transposing a picture, mirroring it, turning it upside down, or placing it in a larger one with a white margin, keeps which pixels have equal labels, the number of contours and the number of sets of points.", "quantifier": "all binary pictures, connection rules and histories of the contour finder", "why_tests_cant": "Relations between runs on all pairs of related pictures.", "anchors": ["boofcpp/src/boofcv/contour.cpp: LinearContourLabelChang2004::process"]}
{"id": "C97", "title": "Blurs, erosion and dilation prefer no direction", "statement": "Blurring a picture which is mirrored left to right, upside down or both gives exactly the mirrored blur, for the mean and for Gaussian kernels of odd width, integral and floating point pixels; in exact arithmetic blurring the transposed picture gives the transposed blur (with integral pixels up to rounding). Erosion and dilation of mirrored and transposed pictures are the mirrored and transposed results.", "quantifier": "all images for which the blur is defined, all radii and standard deviations", "why_tests_cant": "All pairs of related pictures; a bias of one pixel or one rounding would show only on some of them.", "anchors": ["boofcpp/src/boofcv/image_blur.h: BlurImageOps", "boofcpp/src/boofcv/convolve.h: ConvolveNormalized, ConvolveImageMean", "boofcpp/src/boofcv/binary_ops.h: BinaryImageOps"]}
{"id": "C98", "title": "Calls on separate images can be made in any order", "statement": "A sequence of calls (copies, thresholds, logical operations, convolutions, mean blurs), none of which writes an image another one uses, gives the same pictures in every order of the calls: each call succeeds, each returned image shows its own result after the last call, and the images read and all other memory are unchanged, also when images are reallocated on the way.", "quantifier": "all lists of calls, all their permutations, all images and contents", "why_tests_cant": "All orders of all lists of calls, with every combination of reshapes; a call which disturbed another call's image would show only in some orders.", "anchors": ["boofcpp/src/boofcv/image_types.h: Gray", "boofcpp/src/boofcv/binary_ops.h", "boofcpp/src/boofcv/convolve.h: ConvolveImage", "boofcpp/src/boofcv/image_blur.h: BlurImageOps"]}
{"id": "C99", "title": "Native objects of Java objects live as long as they are needed", "statement": "When a Java program makes, uses and drops filters and contour finders, or releases them explicitly, makes their native object anew or changes their image type, then every use and every release finds the C++ object made last for that Java object, with the right type; each C++ object is deleted exactly once, and none is left when all Java objects have been finalized.", "quantifier": "all histories of calls on any number of objects of all seven classes, with finalizers run at any time", "why_tests_cant": "All interleavings and all histories; a double release or a leak shows only after particular sequences of calls.", "anchors": ["boofcpp-jni/src/main/cpp/NativeBlockOtsu.cpp: nativeinit, nativedestroy, nativeprocess (and the five other filters)", "boofcpp-jni/src/main/cpp/NativeChang2004.cpp: native_init, native_destroy", "boofcpp-jni/src/main/java/org/boofcpp/NativeBase.java: setImageType"]}
{"id": "C100", "title": "Blurs are local and grow with the pixels", "statement": "A blurred pixel depends on the pixels of its neighbourhood only: calls on two pictures which agree there give the same pixel. It does not shrink when pixels grow, and raising all pixels of the neighbourhood by the same amount raises it by exactly that amount (integral pixels: when none of them is negative).", "quantifier": "all pairs of images of the same size for which the blur is defined, all pixels, radii and standard deviations", "why_tests_cant": "Relations between all pairs of runs; a stray read or a rounding that depends on the position would show only on some pairs.", "anchors": ["boofcpp/src/boofcv/image_blur.h: BlurImageOps::mean, BlurImageOps::gaussian", "boofcpp/src/boofcv/convolve.h: ConvolveNormalized, ConvolveImageMean"]}
{"id": "C101", "title": "Filtering a part gives the part of the filtered picture", "statement": "Blurring or convolving a view or copy of a part of a picture gives the same pixels as blurring or convolving the whole picture, at every pixel where the filter sees the same pixels: where its window lies inside the part, and for the blurs also where the part and the whole end at the same edge. Large images can thus be filtered piece by piece with overlapping pieces.", "quantifier": "all images, parts, pixels, radii, kernels and borders", "why_tests_cant": "All pairs of a picture and a part; code which takes special paths for small images and near edges must agree with itself for all sizes.", "anchors": ["boofcpp/src/boofcv/image_blur.h: BlurImageOps::mean, BlurImageOps::gaussian", "boofcpp/src/boofcv/convolve.h: ConvolveImage, ConvolveNormalized, ConvolveImageMean", "boofcpp/src/boofcv/image_types.h: Gray::makeSubimage"]}
{"id": "C102", "title": "Repeated erosion and dilation", "statement": "A sequence of erosions and dilations, each applied to the result of the one before, does to the pixels far enough from the edges what the operations on sets of points do: n erosions keep exactly the pixels all of whose surroundings up to n steps away are one, n dilations mark exactly the pixels at most n steps from a one, opening adds no pixel, closing loses none, doing either twice is doing it once, and every sequence grows with the picture, whatever the output images held before.", "quantifier": "all binary images, all sequences of operations, all output images and their contents", "why_tests_cant": "Unbounded sequences of calls over all images; the unwritten frame creeps inward by one pixel per call.", "anchors": ["boofcpp/src/boofcv/binary_ops.cpp: BinaryImageOps::erode4, dilate4"]}
{"id": "C103", "title": "Convolutions move with the picture", "statement": "On a picture which wraps around at its edges, convolving the moved picture gives the moved result, and the pixels of the result sum to the sum of the coefficients times the sum of the pixels. At every border, the mirrored picture convolved with the mirrored kernel gives the mirrored result, and the horizontal convolution of a picture with rows and columns exchanged is its vertical convolution with rows and columns exchanged.", "quantifier": "all images, kernels, displacements, borders and pixels for which the sums are defined (sums: exact arithmetic)", "why_tests_cant": "Relations between all pairs of runs; the code handles the interior, each edge and each corner by different loops, and an error in one of them shows only for some kernels and displacements.", "anchors": ["boofcpp/src/boofcv/convolve.h: ConvolveImage, ConvolveImage_Border, ConvolveImage_Inner", "boofcpp/src/boofcv/image_border.h"]}
{"id": "C104", "title": "Otsu's threshold with rounded arithmetic", "statement": "Computed in double precision, Otsu's threshold is a split at a level which occurs, and no other split has a between-class variance that is larger by more than a stated rounding error; if one split is clearly better than all others it is the one found; if there are at least two levels (up to 256 levels) a split is always found, and with exactly two levels it is the lower one; the mid-point variant is the mid-point of such a split up to rounding.", "quantifier": "all histograms of up to 2^18 levels and 2^32 pixels, all binary floating point formats fine enough, all 8 bit images for the global filter", "why_tests_cant": "Rounding errors depend on every count; the scan compares sums accumulated in different ways, and splits that are equally good are ordered by rounding alone.", "anchors": ["boofcpp/src/boofcv/binary_ops.cpp: ComputeOtsu::compute, computeOtsu, computeOtsu2", "boofcpp/src/boofcv/binary_ops.h: ThresholdOps::computeOtsu, GlobalOtsuBinaryFilter"]}
{"id": "C105", "title": "Choosing sigma and radius with rounded arithmetic", "statement": "Computed in double precision, the sigma chosen for a radius is (2r+1)/(5+0.8*order) up to fifteen roundings, the radius chosen for a sigma is the smallest whose kernel covers (5+0.8*order) sigmas up to a stated rounding error, and numbers that are not positive are rejected. Choosing a sigma for a radius and a radius for this sigma gives the radius back.", "quantifier": "all radii and sigmas in the range of the format, all orders, all binary floating point formats fine enough (the round trip: double, radii up to 2^31)", "why_tests_cant": "The radius is a ceiling: one wrong rounding moves it by a whole pixel, for some of the infinitely many arguments.", "anchors": ["boofcpp/src/boofcv/convolve_kernels.h: FactoryKernelGaussian::sigmaForRadius, radiusForSigma"]}
{"id": "C106", "title": "Gaussian kernels with rounded arithmetic", "statement": "Computed in float or double, the Gaussian kernel of given width and sigma is exactly symmetric, its coefficients are between 0 and 1 and do not increase away from the middle, each is the exact normalised Gaussian coefficient G up to 24(1+width*G) roundings, and they sum to one up to 48*width roundings. A missing width or sigma is chosen as in C105; the sigma chosen for a radius, with no width, gives a kernel of that radius.", "quantifier": "all formats fine enough (float and double: all widths up to 100000, all sigmas from 1/1000 to 1000000), all exponential functions of stated accuracy", "why_tests_cant": "The error depends on every sample, on the accumulated sum and on exp; tests compare a few kernels with a tolerance.", "anchors": ["boofcpp/src/boofcv/convolve_kernels.h: FactoryKernelGaussian::gaussian1D, computePDF", "boofcpp/src/boofcv/convolve_kernels.h: KernelMath::normalize"]}
{"id": "C107", "title": "Integer kernels with rounded arithmetic", "statement": "Converting a floating point kernel to integers in double precision keeps signs, order and symmetry, gives magnitudes of at most 100 and does not lose a largest coefficient; each integer is the exact quotient without its fraction, except where the quotient is within 610 roundings of an integer. A largest coefficient becomes 100 if the smallest is less than a hundredth of it. The integer Gaussian kernel is symmetric, between 0 and 100, does not increase away from its middle, and its middle is positive.", "quantifier": "all kernels, all formats fine enough, all integer types (Gaussian: all widths up to 100000, all sigmas from 1/1000 to 1000000)", "why_tests_cant": "Truncation after rounded divisions: an error in the last bit changes an integer by one for some kernels only.", "anchors": ["boofcpp/src/boofcv/convolve_kernels.h: KernelMath::float_to_int, FactoryKernelGaussian::gaussian1D"]}
{"id": "C108", "title": "Gaussian blur with rounded arithmetic", "statement": "Blurring an image in float or double: every pixel of the result differs from the exact Gaussian blur (exact bell curve, exact averages, edges over the part of the kernel inside) by at most 240*width roundings of the largest pixel magnitude. This includes computing the kernel, both passes of sums and the divisions. For integral pixels the result is the rounded average, rows then columns, for a symmetric integer kernel that does not increase away from its middle. A missing width or sigma is chosen as in C105.", "quantifier": "all images, all pixel values in range, all widths and sigmas, all formats fine enough (float: widths up to 16000; double: up to 100000), exponential functions of stated accuracy", "why_tests_cant": "The error accumulates over the kernel, the sums and two passes, for every image and every kernel; a test compares a few images with a tolerance.", "anchors": ["boofcpp/src/boofcv/image_blur.h: BlurImageOps::gaussian", "boofcpp/src/boofcv/convolve_kernels.h: FactoryKernelGaussian::gaussian1D", "boofcpp/src/boofcv/convolve.h: ConvolveNormalized::horizontal, vertical"]}
{"id": "C109", "title": "2D Gaussian kernels with rounded arithmetic", "statement": "Computed in float or double, every coefficient of the 2D Gaussian kernel is the product of the exact Gaussian coefficients G and G' of its column and row up to 400(1+width*G)(1+width*G') roundings, is between 0 and 1, and the kernel sums to one up to 1600*width*width roundings. The kernel is symmetric in both directions and under exchange of its axes. Converted to integers, coefficients are between 0 and 100, not all zero, with the same symmetries, and each is the exact quotient without its fraction except within 610 roundings of an integer.", "quantifier": "all formats fine enough (double: widths up to 10000, sigmas from 1/1000 to 1000000), all exponential functions of stated accuracy, all integer types", "why_tests_cant": "Errors of the samples, products and sums accumulate over width*width coefficients; tests compare a few kernels with a tolerance, and an asymmetry in the last bit is invisible to them.", "anchors": ["boofcpp/src/boofcv/convolve_kernels.h: FactoryKernelGaussian::gaussian2D", "boofcpp/src/boofcv/convolve_kernels.h: KernelMath::normalize, float_to_int"]}
{"id": "C110", "title": "Local mean threshold with rounding", "statement": "Computed in float and double, the local mean threshold of an integral image compares each pixel with scale times its local mean exactly, except that a pixel to which that product rounds counts as not above the threshold. With a scale written as a decimal from 0.85 to 1.03, an 8 bit image is thresholded exactly by that percentage of the local mean. For floating point images all pixels further from the threshold than a stated error are classified exactly. The configured region width is the nearest integer up to three roundings, whole widths are kept exactly, and a larger image never gets a smaller region.", "quantifier": "all images, widths, scales and directions, all rounding functions that are monotone and of stated accuracy (float and double among them)", "why_tests_cant": "Whether a product in float rounds onto a pixel value depends on every pair of scale and mean; tests try a few images where no pixel is near its threshold.", "anchors": ["boofcpp/src/boofcv/binary_ops.h: ThresholdOps::localMean", "boofcpp/src/boofcv/config_types.cpp: ConfigLength::compute, computeI"]}
{"id": "C111", "title": "A packed set's memory is its own", "statement": "After any history of appending sets and elements (elements given by value, or by reference into the set itself), removing tails and clearing, every query on the set in memory answers as the list of lists would, at every allocation state. A reference obtained from the set keeps designating the same element, with the same value, for as long as that element is kept, however much is appended. No memory other than the set's own is read or written, and destroying the set releases everything it allocated, each array once.", "quantifier": "all histories, all block lengths, all element types, all states of the rest of memory", "why_tests_cant": "A leak, a block released twice or an element moved while a reference to it is held shows only for particular histories, sizes and allocators; most tests pass with all three bugs.", "anchors": ["boofcpp/src/boofcv/packed_sets.h: PackedSet"]}
{"id": "C112", "title": "Growable arrays and kernels own their memory", "statement": "In any program with any number of growable arrays - constructing, resizing, growing, filling, storing, assigning one to another (itself included), setting from any part of any array's memory (its own included), destroying - each array holds exactly the elements it would hold as a value of its own, no other memory is touched, no freed memory is read, and when all arrays are destroyed everything is released, each array once. A request refused with an exception changes nothing and leaks nothing. An array, packed set or kernel that is copied or returned by value is as good as the original.", "quantifier": "all histories over all numbers of arrays, all element types, all states of the rest of memory; both choices of the compiler on copy elision", "why_tests_cant": "Overlapping moves, stale pointers and double releases depend on the history and on the allocator and often go unnoticed; copy elision hides the missing copy constructor with one compiler and not with another.", "anchors": ["boofcpp/src/boofcv/base_types.h: GrowArray", "boofcpp/src/boofcv/packed_sets.h: PackedSet", "boofcpp/src/boofcv/convolve_kernels.h: Kernel1D, FactoryKernel::table1D"]}
{"id": "C113", "title": "Tuned Otsu thresholds with rounded arithmetic", "statement": "With a tuning and a scale, computed in double precision: the threshold of a nearly optimal split is moved by the penalty for low texture, (tuning*threshold)^2/(variance+0.001) rounded to an integer, and scaled, and the result is the nearest integer, all up to stated rounding errors relative to the exact quantities of that split. Without a scale the standard variant gives exactly the split moved by a whole number. Tuning never selects more pixels than no tuning, and rounding makes no exception to that.", "quantifier": "all histograms, tunings, scales, directions and both variants within the range of int (double: 256 levels, a billion pixels), all binary floating point formats fine enough; the last sentence: all monotone formats and all histograms", "why_tests_cant": "The penalty divides by a variance which is itself computed with cancellation; the errors depend on every count, and a threshold moved the wrong way by one level shows only for some histograms.", "anchors": ["boofcpp/src/boofcv/binary_ops.cpp: ComputeOtsu::compute"]}
{"id": "C114", "title": "Block threshold filters with rounded arithmetic", "statement": "Computed in float and double, the block mean filter with scale 1 compares each pixel with the average of block means that are rounded to the nearest integer exactly (8 bit: blocks of up to 10000 pixels); with any other scale each block statistic is within one half of the scaled mean of its block, up to stated rounding errors. The min-max filter compares each pixel with the scaled mid-value of the local extremes exactly, except for pixels closer to it than one rounding. The Otsu filter uses, for every block, a threshold that is Otsu's threshold for the pixels of the local blocks up to rounding errors. For images of float the mean and min-max filters decide every pixel as with exact arithmetic unless it is closer to the threshold than a stated rounding error. The block grid depends on the rounded size only.", "quantifier": "all images, block sizes, scales, tunings and directions, local or not, within stated ranges; all monotone rounding functions of stated accuracy (float and double among them)", "why_tests_cant": "Whether a rounded quotient reaches the next half depends on every pair of sum and area; tests try a few images.", "anchors": ["boofcpp/src/boofcv/threshold_block_filters.h: ThresholdBlock::process, ThresholdBlockMean, ThresholdBlockMinMax, ThresholdBlockOtsu", "boofcpp/src/boofcv/config_types.cpp: ConfigLength::computeI"]}
{"id": "C115", "title": "Otsu thresholds of float images with rounded arithmetic", "statement": "Computing Otsu's threshold of an image of float pixels, all of them within the given range, in float and double: no memory outside the histogram is touched, each pixel is counted at the integer part of its distance from the minimal value up to one rounding, and the value returned is a split of this histogram whose between-class variance is maximal up to stated rounding errors. The filter for the range 0 to 255 counts every pixel at its integer part exactly and compares the pixels with that value.", "quantifier": "all float images, all ranges that contain the pixels; all monotone formats for the pixels and all formats fine enough for the threshold (float and double among them)", "why_tests_cant": "Whether a rounded difference reaches the next integer while the rounded range does not depends on the last bits of the extreme pixels; almost no image shows it.", "anchors": ["boofcpp/src/boofcv/binary_ops.h: ThresholdOps::computeOtsu, GlobalOtsuBinaryFilter", "boofcpp/src/boofcv/image_statistics.h: ImageStatistics::histogram", "boofcpp/src/boofcv/binary_ops.cpp: ComputeOtsu"]}
{"id": "C116", "title": "Running out of memory leaves objects usable", "statement": "When memory runs out in an operation (std::bad_alloc), every object involved can still be used and destroyed afterwards, and nothing is lost. Resizing a growable array, or setting it to a list, either succeeds or changes nothing; a program that goes on after such failures holds exactly the elements of the operations that succeeded, and releases everything. A packed set in any history in which memory runs out at any allocation answers every query as the list of lists made by the operations that succeeded (a failed append to an empty collection may have started its first set), and can be destroyed. An image that needs no new array for its new shape needs no memory.", "quantifier": "all histories, all choices of the allocations that fail, all element types, all states of the rest of memory", "why_tests_cant": "Allocations practically never fail in a test; a test would have to inject a failure at every allocation of every history.", "anchors": ["boofcpp/src/boofcv/image_types.h: Gray::reshape, copy, Interleaved::reshape, setNumberOfBands", "boofcpp/src/boofcv/base_types.h: GrowArray", "boofcpp/src/boofcv/packed_sets.h: PackedSet"]}
{"id": "C117", "title": "Adaptive thresholds do not depend on the brightness", "statement": "Adding the same constant to every pixel, such that no pixel leaves the range of its type, does not change the binary image made by the local mean threshold, the block mean, block min-max and block Otsu filters and the global Otsu filter (scale 1), for pixels that are not negative; Otsu's threshold moves by the constant. Otsu's threshold of an image depends only on how often each value occurs, not on where or on the shape of the image.", "quantifier": "all pairs of images that differ by a constant, all block and window sizes, directions, local or not, all states of memory", "why_tests_cant": "A relation between two runs for every image and every constant; the truncating divisions of the code would have to be tried on all remainders.", "anchors": ["boofcpp/src/boofcv/binary_ops.h: ThresholdOps::localMean, globalOtsu, computeOtsu", "boofcpp/src/boofcv/threshold_block_filters.h: ThresholdBlockMean, ThresholdBlockMinMax, ThresholdBlockOtsu", "boofcpp/src/boofcv/image_blur.h: BlurImageOps::mean"]}
{"id": "C118", "title": "Adaptive thresholds are local, complementary and symmetric", "statement": "The result of a local mean threshold at a pixel depends only on pixels at most half the window width away, and the result of a block filter only on the pixels of the blocks that count for it. With scale 1 the two directions of the local mean threshold, and those of the block mean and block Otsu filters, give complementary pictures; so do those of the block min-max filter wherever the local contrast exceeds its limit, and elsewhere it gives 1 in both. Mirroring the input, in either or both directions, mirrors the result: always for the local mean, and for the block filters when the image is divided into blocks of one size.", "quantifier": "all pairs of images, all block and window sizes, directions, local or not, all states of memory", "why_tests_cant": "Relations between runs on two different images (or directions) for every image; a window that reaches one pixel too far on one side shows only for particular pixels there.", "anchors": ["boofcpp/src/boofcv/binary_ops.h: ThresholdOps::localMean", "boofcpp/src/boofcv/threshold_block_filters.h: ThresholdBlock::process, ThresholdBlockMean, ThresholdBlockMinMax, ThresholdBlockOtsu", "boofcpp/src/boofcv/image_blur.h: BlurImageOps::mean"]}
{"id": "C119", "title": "Contours list exactly the boundary pixels and hold at most four points per foreground pixel", "statement": "After labelling a binary image no point occurs more than four times in all contours together, all contours together hold at most four points for every foreground pixel, and a step from one pixel to a neighbour occurs at most once in all contours together. If no contour is dropped because of its length or because internal contours are not saved, the points listed are exactly the foreground pixels that have a background neighbour (side neighbours under the 8-connect rule, side or corner neighbours under the 4-connect rule; everything outside of the image counts as background).", "quantifier": "all binary images, both connectivity rules, all limits, all states of memory and histories of the labeller", "why_tests_cant": "A bound over all images; contours that pass a pixel often appear only for particular arrangements of its neighbours and holes.", "anchors": ["boofcpp/src/boofcv/contour.cpp: LinearContourLabelChang2004::process, ContourTracer::trace, ContourTracer::add", "boofcpp/src/boofcv/packed_sets.h: PackedSet::push_tail"]}
{"id": "C120", "title": "Statistics depend on how often each value occurs, and add up over the parts of an image", "statement": "Two images of any shapes in which every value occurs equally often (for example an image and its mirror image, or with rows and columns exchanged, or a sub-image and a copy of it) have the same sum and mean (unsigned pixels; signed 16-bit pixels up to 65535 of them for the sum), the same histogram, and, if they own their arrays, the same minimum and maximum. If an image is cut at a column or a row into two sub-images, its histogram is the sum of theirs, and its sum is the sum of theirs (modulo 2^32).", "quantifier": "all pairs of images of any shapes with the same values, all cuts, all states of memory", "why_tests_cant": "Relates runs on different images, of which there are infinitely many.", "anchors": ["boofcpp/src/boofcv/image_statistics.h: ImageStatistics::sum, mean, min, max, histogram", "boofcpp/src/boofcv/image_types.h: Gray::makeSubimage"]}
{"id": "C121", "title": "Different pictures have different contours", "statement": "If every contour is kept (internal ones included), the contours determine the picture: two binary pictures, of any shapes and labelled by any labellers with the same rule, which have the same contours in whatever order have the same foreground pixels. In particular two different pictures of the same shape differ in at least one contour.", "quantifier": "all pairs of binary pictures, all histories of the labellers, both rules", "why_tests_cant": "Relates runs on two pictures, of which there are infinitely many pairs.", "anchors": ["boofcpp/src/boofcv/contour.cpp: LinearContourLabelChang2004::process, ContourTracer::trace", "boofcpp/src/boofcv/contour.h: LinearContourLabelChang2004::packedPoints"]}
{"id": "C122", "title": "The contour finder neither leaks nor releases memory of others", "statement": "A contour finder makes seven arrays when it is constructed, all distinct. Whatever pictures it processes and however it is configured in between, these arrays stay its own: processing a picture gives the labels and contours that belong to that picture, changes no array of the rest of the program except the label image, leaks nothing, and destroying the finder releases exactly its own arrays. The implicit copy of a finder shares its arrays, so destroying both is undefined; a constructor which runs out of memory leaks the tables made before.", "quantifier": "all histories of a finder, all binary pictures, both rules, all states of the rest of the program", "why_tests_cant": "The claim is about every sequence of uses and every heap; a test sees a few sequences and no leak.", "anchors": ["boofcpp/src/boofcv/contour.cpp: ContourTracer::ContourTracer, ContourTracer::~ContourTracer, ContourTracer::setInputs, LinearContourLabelChang2004::process", "boofcpp/src/boofcv/contour.h: ContourTracer, LinearContourLabelChang2004"]}
{"id": "C123", "title": "Contour finders side by side do not disturb each other", "statement": "A program may have any number of contour finders at once, and make, configure, use and destroy them in any order. No two finders ever share memory; using or destroying one leaves the memory of the others as it was; what a finder returns for a picture depends on the picture, its connection rule and its limits only, not on the other finders or on what they did; and all of them can be destroyed in any order, which releases each array exactly once and nothing else. The label image given to one finder may be one another finder has filled.", "quantifier": "all numbers of finders, all interleavings of their calls, all binary pictures, both rules, all states of the rest of the program", "why_tests_cant": "The claim is about every interleaving of calls on every number of objects; a test runs a few.", "anchors": ["boofcpp/src/boofcv/contour.cpp: ContourTracer::ContourTracer, ContourTracer::~ContourTracer, LinearContourLabelChang2004::process", "boofcpp/src/boofcv/contour.h: ContourTracer, LinearContourLabelChang2004"]}
{"id": "C124", "title": "Infinities and not-a-number in float images", "statement": "Convolving, blurring, thresholding and looking for the extrema of a float image is defined whatever its pixels are, infinities and not-a-number included. A pixel which is not-a-number makes the convolved or averaged value not-a-number exactly where the window contains it, a pixel which is infinite only affects the windows which contain it, and pixels outside the window have no effect on a value, however large they are. Thresholding in the two directions gives complementary results wherever the pixel and the threshold are not not-a-number and 0 in both otherwise. The smallest and the largest pixel are found among the pixels which are not not-a-number. The same holds for normalised convolution, and the histogram and Otsu's threshold of such an image are defined too.", "quantifier": "all float images with any values, all kernels, radii and rounding modes", "why_tests_cant": "One special value in one place of one image is a test; the claim is about every value anywhere and where it has effects.", "anchors": ["boofcpp/src/boofcv/image_blur.h: ConvolveImageMean::horizontal, ConvolveImageMean::vertical", "boofcpp/src/boofcv/convolve.h: ConvolveImage::horizontal, ConvolveImage::vertical, ConvolveImage::convolve", "boofcpp/src/boofcv/binary_ops.h: ThresholdOps::threshold", "boofcpp/src/boofcv/convolve.h: ConvolveNormalized::horizontal, ConvolveNormalized::vertical", "boofcpp/src/boofcv/image_statistics.h: ImageStatistics::min, ImageStatistics::max, ImageStatistics::histogram"]}
{"id": "C125", "title": "Calls made at the same time in several threads", "statement": "Several threads may call the library at the same time, share input images and kernels, and need no locks, as long as the output and the storage of no call is used by another one. However their accesses to memory are interleaved, there is no data race and no access outside of an array, every call returns after a number of accesses which does not depend on the other threads, and the image it returns is the one it would have produced alone; arrays which are nobody's output or storage are unchanged. This also holds when the outputs are parts of one image, for example windows made by makeSubimage which do not overlap: a call writes no cells of the array of its output but its pixels. Inputs may be parts of the same image too; for threshold, logic operations and copies they may even be in the array which the others write, as long as no call writes a pixel which another one uses. Contour finders and block threshold filters behave in the same way when every thread has its own object, and so do image statistics, filling and the average of bands. (Outputs, storage and the images inside the objects already have the right size. A call whose output another one uses can race with it.)", "quantifier": "any number of threads, all interleavings of their accesses, all images and arguments with which each call alone is defined", "why_tests_cant": "A test runs one interleaving of one set of calls, and a data race need not show in its result.", "anchors": ["boofcpp/src/boofcv/binary_ops.h: ThresholdOps::threshold, ThresholdOps::localMean", "boofcpp/src/boofcv/contour.cpp: LinearContourLabelChang2004::process", "boofcpp/src/boofcv/threshold_block_filters.h: ThresholdBlockCommon::process", "boofcpp/src/boofcv/image_statistics.h: ImageStatistics::min, max, sum, mean", "boofcpp/src/boofcv/image_convert.h: convert_average", "boofcpp/src/boofcv/binary_ops.cpp: logicAnd, logicOr", "boofcpp/src/boofcv/convolve.h: ConvolveImage::horizontal, ConvolveImage::vertical, ConvolveImage::convolve", "boofcpp/src/boofcv/image_blur.h: BlurImageOps::mean, BlurImageOps::gaussian", "boofcpp/src/boofcv/image_types.h: Gray::copy, Gray::makeSubimage"]}
