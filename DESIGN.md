# Formal model of BoofCPP in Lean 4

## 1. Approach

The C++ sources under `/repo/boofcpp/src/boofcv` are modelled function by function as
computable Lean programs in a small state monad `M V`:

* the state is a heap: a list of allocated arrays, each live (contents) or freed;
* the outcome of a call is one of
  `ok value heap`, `throw heap` (a C++ exception, with the heap at that moment),
  `ub` (undefined behaviour: access outside a live array, use after free, double free,
  signed overflow, division by zero, out-of-range float-to-int cast), or
  `timeout` (the fuel given to a `for(;;)` loop ran out).
* `uint32_t` arithmetic is modelled on `Nat` with explicit reduction modulo 2^32
  (`wrap32`, `sub32`); `int32_t` arithmetic is modelled on `Int` with an explicit range check.
* loops become the combinators `loop n body` / `loopS n init body` with the trip count
  computed as the C++ code computes it (including wrap-around).

Images (`Gray`, `Interleaved`) are records holding the buffer id and the five layout
fields, so sub-images, aliasing, strides and dangling views are all represented.
Small owning containers (`GrowArray`, `PackedSet`, kernels) are records which contain
their arrays. That this is right is proved, not assumed: C111 and C112 model `PackedSet` and `GrowArray` objects
with pointers into the heap and show that they refine these records.

A theorem about a function says: from any heap and any arguments satisfying a stated
precondition the outcome is `ok` (or exactly `throw`), together with the value of every
cell of the resulting heap (result pixels *and* the frame: everything not mentioned is unchanged).

### Pixel and arithmetic types

Cells have an arbitrary type `V`. Integer images use `V = Int` with the conversion of the
C++ type (`IntTy`) applied on stores. Convolution is proved for an abstract arithmetic
(`mac`, `out`, ... possibly undefined) so a single theorem covers 8/16/32-bit integers with
overflow as undefined behaviour and IEEE floats bit-exactly (only commutativity of
multiplication is used and built into `mac`; the order of summation is the code's order).
Where the code computes with `float`/`double` and the property is numeric (Otsu, Gaussian kernels,
`ConfigLength`, block-mean threshold) the arithmetic is an arbitrary ordered field, i.e. exact; rounding is
not modelled and the manifest says so. For Otsu's threshold (C104, C113), Gaussian kernels (C105-C107, C109), the Gaussian blur (C108), local thresholds (C110), block thresholds (C114), Otsu thresholds of float images (C115), convolution and the mean blur rounding is modelled as well (C84): a rounding
`K → Option K` is applied after every operation, with the IEEE formats binary32 and binary64 as instances, and the distance to
the exact result is bounded.

## 2. Layout

* `lean/Verif/Cpp/*`    outcome monad, heap, machine integers, loops, program logic
* `lean/Verif/Model/*`  the model, each definition citing file and lines
* `lean/Verif/Spec/*`   specification vocabulary, independent of the model's functions
* `lean/Verif/Proofs/*` helper lemmas
* `lean/Verif/Props/*`  the property theorems and their non-vacuity examples

## 3. Properties: what is modelled and how it is proved

| id | modelled | proof |
|----|----------|-------|
| C01-C06 | `Gray` constructors, `reshape`, `at`, `unsafe_at`, `copy`, `makeSubimage`, `operator=` on the heap | layout invariant `Valid`; index arithmetic lemma (no wrap inside a valid image); induction over operation lists for C03 |
| C07 | `ImageBase` getters | false for `getHeight` (returns the width): refuted, `_partial` for width and square images |
| C08-C10 | `Interleaved` | same invariant with bands; C10 at the byte level, refuted for element size > 1, `_partial` for one-byte elements |
| C11-C13 | `GrowArray` with byte-level `memset` | direct; C11, C12 refuted in general, `_partial` for the conditions under which they hold |
| C14-C16 | `PackedSet` with its blocks | abstraction function to `List (List T)`, simulation by every operation, induction over histories |
| C17-C20 | `ImageBorder*` | integer arithmetic; C18/C19 refuted outside one image width, `_partial` inside |
| C21-C24 | `ImageMiscOps` | loop invariants with frame; C23, C24 refuted for sub-images |
| C25-C28 | `ImageStatistics` | loop invariants; C26, C27 refuted for sub-images / negative sums |
| C29 | `ConvertImage::convert_average` | loop invariant; refuted for negative signed sums |
| C30-C32 | `BinaryImageOps` | loop invariants incl. in-place aliasing |
| C33, C36 | `ThresholdOps::threshold`, `localMean` | loop invariants |
| C34, C35 | `ComputeOtsu`, `computeOtsu` | exact-arithmetic optimality; C35 refuted |
| C37-C41 | block filters, for 8-bit and for floating point images | arithmetic of the tiling, loop invariants |
| C42-C46 | kernels | lists; exact arithmetic for float kernels |
| C47-C55 | convolution, blur | generic arithmetic; inner/border region split; sliding window invariant |
| C56-C58 | config, geometry, sanity checks | direct |
| C59-C61 | `ContourTracer` | tracer step is a permutation of a finite state set; refinement of the memory-level code to it |
| C62-C67 | `LinearContourLabelChang2004` | boundary orbits and a parity (winding) function on pixels; scan invariant |
| C68 | `copy_into_java` layout | arithmetic |
| C69, C75 | `ComputeOtsu` second variant, tuning, scale | exact arithmetic, characterisation of the returned level |
| C70 | `Gray` from an initializer list | loop invariant over rows |
| C71 | extrema of kernels | loop invariant; magnitudes of integers refuted for the most negative number |
| C72 | a world of image objects: make, reshape, copy, assign, view, destroy | ownership invariant, induction over histories; three operations refuted |
| C73 | `Planar` | ownership of the bands; destructor refuted |
| C74 | JNI calls: `wrapCritical*`, pinning, release, the six filters, blur, convolution | a state with pinned arrays; the native function's theorem is transported to Java arrays, for both choices (copy or not) of the virtual machine |
| C76, C77 | `NativeChang2004` with `WrapJGrowQueue_I32` and the settings | composition of C62-C68 with the transfer; induction over uses |
| C78, C79 | `sigmaForRadius`, `radiusForSigma`, kernel `reshape`, `fill_uniform` | arithmetic, lists |
| C80, C81 | Java kernels and borders, `borderToType`, `NativeImageBlurOps` | composition of C47-C55 with C74 |
| C82 | life of a native filter: `nativeinit`, any calls, `nativedestroy` | invariant of the filter's state, induction over the calls; for `GrayU8` and `GrayF32` |
| C83 | `BlurImageOps` mean and Gaussian | from C54, C55 and bounds of weighted averages |
| C84 | `float` and `double` as roundings of exact numbers (`ieee`), convolution, normalised convolution and the mean blur with every operation rounded | error analysis: invariant `Within` of rounded sums, then the generic theorems of C47-C49, C51, C54 |
| C85 | `NativeUtils` and the static initialiser of `BoofCPP` over a file system; every operation which may fail asks an arbitrary schedule of faults; the history of the file system is recorded | invariant over all calls (`Good`): extra files only in the temporary directory, each registered for deletion; `exit` replays the registrations backwards |
| C86 | the same model; resources as the sequence of chunks which `read` gives | induction over the chunks and the names; outcome of a search as a function of the list of candidates; refutation by a jar with libraries for two processors |
| C87 | `print_structures.h` as functions which return the text written; the text of a floating point number is a parameter | the text equals a specification by rows and words; injectivity by splitting texts at separators and uniqueness of digits |
| C88 | `check_equals` and its border and inner variants of `testing_utils.h` | loops over pixels as conjunctions; the regions as predicates on coordinates |
| C89 | `create_subimage` of `testing_utils.h` | from C04 (window) and C05 (copy) |
| C90 | convolution of C47 - C49 over a field | the border as a map of coordinates, hence linear; sums distribute |
| C91 | the same, and integral pixels | a sum with one term |
| C92 | the same; two calls one after the other | exchange of sums; the intermediate picture extended by the border is the row sums of the extended picture (`ext_rowSum`) |
| C93 | `ConvolveImageMean` and `ConvolveNormalized` | both paint the same picture (C51, C54), and what is painted determines memory |
| C94 | thresholds of C33 followed by `LinearContourLabelChang2004` | the output of the filter meets the conditions of C62 - C67; labellers are not disturbed by writes elsewhere |
| C95 | results of `process` (C62, C63, C66) | the outer boundary of each component is unique (winding numbers); applied to the picture with colours exchanged this gives one surrounding component per hole, hence one internal boundary |
| C96 | pairs of runs | maps between pictures carry regions and holes over; counting of regions |
| C97 | pairs of runs of C31, C54, C55 | windows of mirrored lines are mirrored windows; exchange of sums; Gaussian kernels and their integer versions are determined by their specification (C45_determined, C46_determined) |
| C98 | lists of calls in the memory model (Spec/Jobs.lean) | induction on the list with all later calls' images kept; soundness of each kind of call from C05, C30, C31, C33, C35, C36, C47–C49, C51, C54, C55 |
| C99 | fields `nativePtr`, `isInteger` of Java objects, table of C++ objects (Model/NativeObjects.lean); histories of calls | invariant by induction over histories: pointer state is determined by the history; addresses are never shared |
| C100 | two calls of a blur on pictures of the same size (Spec/Symmetry.lean: BlurCall, FitsSums) | averages are monotone in the numbers under the kernel; the quotient is a pixel, so no conversion interferes; `tdiv` is monotone, and shifts for non-negative numerators |
| C101 | two calls, on a picture and on a part of it (Spec/Part.lean: PartOf, SeesSame) | the windows of part and whole hold the same numbers, so the sums and counts agree |
| C102 | sequences of calls of erode4 and dilate4 (Spec/Morphology.lean: Calls), operations on sets of points | refinement by induction over the sequence: after `n` calls the pixels at depth `n` show the morphed set; laws of the operations on sets |
| C103 | the three convolutions on moved, mirrored and transposed pictures (Spec/Moved.lean) | borders commute with moving, mirroring and transposing; sums reindexed; results of C47–C49 |
| C104 | `ComputeOtsu` and its users with every operation on `double` rounded (Model/RoundedOtsu.lean) | error analysis of sums, means and variances (`Within`), invariant of the scan; an empty level repeats the same rounded computation |
| C105 | `sigmaForRadius` and `radiusForSigma` with every operation on `double` rounded (Model/RoundedGauss.lean) | error analysis of each step; round trip for order 0 by arithmetic of roundings of fifths (`ieee_fifth`); counterexample for order 1 |
| C106 | `gaussian1D` and `computePDF` with every operation rounded, `exp` any function (Model/RoundedGauss.lean) | inversion of the run, then monotonicity of rounding (shape) and an error analysis over the reals (accuracy): `t*exp(-t) <= 1/2` bounds the error of the exponent |
| C107 | `float_to_int` and the integer `gaussian1D` with every operation rounded | errors of the quantum and quotients; monotonicity of rounding for order, sign, symmetry |
| C108 | `BlurImageOps::gaussian` with every operation rounded | C106 for the kernel; windows which contain the middle have at least the average weight; a perturbed kernel changes an average by at most twice its relative error; C84 for each pass |
| C109 | `gaussian2D` and the 2D `float_to_int` with every operation rounded | C106 for the 1D kernel; errors of products; the sum of `w*w` rounded products; C107's conversion lemma on the coefficients numbered row by row; a rational witness for the asymmetry of row 0 |
| C110 | `localMean` and `ConfigLength::computeI` with every floating point operation rounded (`Model/RoundedLocal.lean`) | rounding keeps order and the numbers of the format, so a rounded comparison is exact or the product rounds onto the pixel; the 8 bit case reduces to whole products, a finite table; C84 for floating point means |
| C111 | `PackedSet` with its array of pointers, blocks and heap (`Model/PackedMemory.lean`) | refinement to the value model of C14-C16 by a mirror relation kept by every function; places of elements are never freed before destruction |
| C112 | `GrowArray` objects in a heap (`Model/ArrayMemory.lean`), programs over any number of variables | invariant: distinct arrays, each mirrors its value, nothing else allocated; `memmove` proved for overlapping ranges, `memcpy` undefined on overlap; copies and returns by value as the language allows |
| C113 | end of `ComputeOtsu::compute` with every operation on `double` rounded (`Model/RoundedOtsu.lean`) | relative error of the computed between-class variance, then error analysis of penalty, move and scale; monotonicity of rounding alone for `C113_selects_fewer` |
| C114 | the three block filters with every operation on `float`/`double` rounded (`Model/RoundedBlocks.lean`) | reduction to C39-C41, which hold for any arithmetic; monotone rounding and exact halves for the means, error analysis for scales, C113 for Otsu; float pixels (`Model/RoundedBlocksFloat.lean`) by an error analysis of sums over rectangles |
| C115 | `histogram`, `computeOtsu` and the global Otsu filter for `F32` with every operation on `float`/`double` rounded (`Model/RoundedOtsuFloat.lean`) | loop invariant for the histogram of rounded differences; monotone rounding keeps the indices in range under an exact condition; C104 for the split; a counterexample to the general claim evaluated by the kernel |
| C116 | the functions of `Gray`, `Interleaved`, `GrowArray` and `PackedSet` which allocate, with allocations that may fail (`Model/OutOfMemory.lean`): the result says whether the exception was thrown and what the object is like afterwards | refinement to values in which a failed operation has no effect, by induction over histories; for packed sets the heap invariant of C111 with a list of the arrays left behind; negations for every object |
| C117 | two runs of the threshold functions of C36, C110, C114, C35, C41 on pictures that differ by a constant (`Spec/Brightness.lean`) | every statistic the filters use moves by the constant: sums, quotients truncated or rounded of numbers that are not negative, extremes, Otsu's split (the maximiser is unique); negations by witnesses |
| C118 | two runs of the threshold functions of C36/C110, C39, C40, C41 on two pictures, or in the two directions (`Spec/Nearby.lean`) | sums, extremes and counts over a region depend on that region; mirrored regions are the regions of the mirrored blocks when the blocks have one size; a threshold splits the pixels in two |
| C119 | the labeller of C61-C67; points observed through the packed set | a contour is an orbit of a permutation of (pixel, direction) states; every state that lists a point is charged to a side of its pixel, injectively and inside its orbit, and different contours are different orbits; boundary pixels from C63 |
| C120 | two runs of the statistics of C25-C28 (`Spec/Counts.lean`) | equal counts make the lists of pixels permutations of each other; sums over rows and columns split |
| C121 | two runs of `process` of C61-C67 (`Spec/Contour.lean`) | equal paths make the same steps, hence look at the same neighbours; every side of a foreground pixel to the background is looked at; a picture is determined by its sides, row by row |
| C122 | `ContourTracer` and `LinearContourLabelChang2004` with the tables of the tracers in memory (`Model/ContourMemory.lean`) | simulation: the run with tables in memory and the run of C59-C67 with tables as values, side by side, on heaps which agree outside the tables; induction over histories; ownership from the arrays each call replaces |
| C123 | any number of contour finders in one heap, made, used and destroyed in any order (`Spec/ContourTeam.lean`) | induction over histories: every finder is in a state of C122 and the arrays are pairwise disjoint; the frame of `process` from C122, as equality of whole arrays; results by C65 |
| C124 | floats with infinities and not-a-number (`Model/SpecialFloat.lean`) in the convolutions, the mean blur, thresholding and the extrema | the generic runs of C47-C49, C54, C33 and C26 with this arithmetic; induction over the running sum: which infinities went in; concrete rows refute locality of the mean blur |
| C125 | threads: a call as a tree of single accesses (`Cpp/Threads.lean`), a schedule as a list of threads, data races | a call run on the arrays it uses only (C98) gives what each of its accesses touches; invariant over the schedule: each thread sees its arrays (for calls which write parts of one image: the cells it uses) as if it ran alone; no allocation in the threads, kernels are private or only read; the contour finder likewise, with its point lists and tables private to it |

## 4. Disagreements between code and properties found while modelling

Each has a refutation theorem in `Props` (named) or is excluded by a hypothesis which the theorem's comment names.

1. `ImageBase::getHeight` returns `width` (image_types.h:46). `C07_getHeight_refuted`
2. `Interleaved::setTo` passes an element count to `memcpy` as byte count (image_types.h:459). `C10_setTo_refuted`
3. `GrowArray::fill`, `resize`, `grow_array` use `memset` with an element value; `resize` within capacity exposes stale elements (base_types.h:123-156). `C11_*_refuted`, `C12_fill_refuted`
4. Reflect and wrap borders are only valid within one image size (image_border.h:98-124); convolutions with larger kernels read outside the array. `C18_*`, `C19_*`, `C47_*`, `C48_*`
5. Interleaved `fill` and `fill_uniform`, `ImageStatistics::min/max` ignore offset and stride of sub-images. `C23_*`, `C24_*`, `C26_sub_refuted`
6. `ImageStatistics::max` of floating images starts at the smallest positive number. `C26_max_float_refuted`
7. `ImageStatistics::sum` overflows although the sum is representable. `C25_sum_refuted`
8. `ImageStatistics::mean`, `convert_average` and the block mean divide a signed sum by an unsigned count: wrong for negative sums. `C27_*`, `C29_*`, `C39_*`. Mean of an empty image and conversion of an image without bands divide by zero.
9. `ThresholdOps::computeOtsu` returns a threshold relative to `min_value` and the filter uses it as absolute. `C35_refuted`
10. `ConvolveImageMean::vertical` compares the kernel width with the image *width* (image_blur.h:197): out-of-bounds access on wide, short images. `C54_vertical_refuted`; also in C36, C74, C81.
11. `ConvolveNormalizedNaive::vertical` narrows kernel coefficients to the pixel type (convolve.h:310,343). `C51_vertical_refuted`, `C53_transpose_refuted`
12. Integer normalised convolution adds half the weight also to negative sums: a constant image of -1 becomes 0. `C52_range_refuted`
13. `FactoryKernel::normalize` only scales the first row of a 2D kernel (convolve_kernels.h:258). `C44_normalize2D_refuted`
14. `gaussian2D` with a width to be chosen throws; `gaussian1D` with width 1 and sigma to be chosen throws. `C45_gaussian2D_refuted`
15. `Kernel2D` of width 65536 or more has too few coefficients; the offset of a 2D list and of `reshape` is not checked; `float_to_int` of a zero kernel divides by zero. `C42_*_refuted`
16. Largest magnitude of integer kernels with the most negative number. `C71_abs_refuted`
17. `erode4`/`dilate4` on images with zero rows or columns run out of bounds. `C31_no_rows_refuted`
18. A texture limit of -1 ("off") in the block min-max filter is undefined for unsigned pixels. `C40_disabled_refuted`. A requested block size of 0 divides by zero.
19. `Gray` has no copy constructor: double release (`C72_copy_constructor_refuted`); assigning a sub-image to an owner leaks (`C72_assign_view_leaks_refuted`); so does a picture with rows of different length (`C72_rows_leak_refuted`).
20. `~Planar` is undefined behaviour as soon as there is a band. `C73_destroy_refuted`
21. A block size of 0 in a packed set divides by zero. `C14_zero_block_refuted`
22. JNI: after an exception the input array stays pinned (`C74_swallow_refuted`), a null input gives back an array which is not pinned (`C74_null_refuted`), exceptions of blur and convolution reach the virtual machine (`C74_escape_refuted`), each wrapped image leaks an array without elements (`C74_leak_refuted`).
23. A negative minimal contour size given by Java is read as unsigned. `C77_negative_min`
24. `borderToType` looks only at the rule for rows. `C80_rules_refuted`
25. A Gaussian radius of 2^30 or more overflows. `C81_radius_refuted`
26. A fixed threshold outside (-1,256) is undefined behaviour, one in (-1,0) is taken for 0. `C82_globalFixed_*refuted`. Destroying a native filter twice releases it twice. `C82_destroy_twice_refuted`
27. The contour finder misses holes when the picture has values other than 0 and 1 (C62, C63 are stated for binary pictures). `C95_other_values_miss_holes`
28. The block min-max filter for `float` starts its search for the largest pixel with `numeric_limits<float>::min()`, a positive number: wrong thresholds where no pixel is positive. `C40_float_refuted`
29. The global Otsu filter for `float` puts pixels into levels by rounding down and then compares the pixels themselves with the level: pixels with a fraction end up on the wrong side. `C35_float_refuted`
30. The vertical mean blur of `float` images computes array indexes in `float`: beyond `2^24` they are rounded, one row too many is summed, and reads leave the array. `C84_index_refuted`
31. A library which is there but cannot be loaded, for example the one for another processor, ends the search in the static initialiser of `BoofCPP` with an `UnsatisfiedLinkError` (only `Exception` is caught), although a later place has the right one. `C86_fallback_refuted`
32. Printing an image of 64-bit pixels passes them to `%x`, which takes `unsigned int`: undefined behaviour. `C87_print_long_refuted`
33. `check_equals_border` with a border wider than the image computes `width - border` in unsigned arithmetic; it wraps around and pixels of the border are not compared. `C88_border_refuted`
34. `create_subimage` allocates an image, takes a window and loses the owner: the array is never released (stated by `C89_create_subimage`).
35. `Kernel2D::reshape` to another width keeps the coefficients in storage order, so that they change rows and columns. `C79_reshape2D_refuted`
36. `nativedestroy` of the threshold filters is public and leaves `nativePtr` as it is, so the finalizer deletes the object a second time
    (`C99_destroy_refuted`; the contour finder resets the pointer, `C99_contour_destroy`). `setImageType` after construction makes all later
    uses and the finalizer use the wrong C++ type (`C99_type_refuted`); a second `nativeinit` leaks (`C99_reinit_refuted`).
37. `NativeImageConvolveNormalized.nativeconvolve` is declared in Java and implemented nowhere: calling it throws `UnsatisfiedLinkError`. There is no code to model.
38. Of two splits which are equally good, Otsu's method in double precision takes the one that rounding favours, not the first one: the histogram 1, 1, 1 gives 1 instead of 0. `C104_tie`
39. In double precision the radius chosen for the sigma of radius 6 and order 1 is 7: `radiusForSigma(sigmaForRadius(6,1),1) = 7`. With exact arithmetic, and in double for order 0, the radius comes back. `C105_inverse_refuted`
40. `gaussian1D` with an even width and a small sigma, e.g. width 2 and sigma 1/128, in double precision: every sample underflows to zero, the kernel is divided by the sum zero and consists of NaN. The exact kernel is 1/2, 1/2. `C106_even_refuted`
41. `float_to_int` in double precision makes the largest coefficient 99, not 100, for some kernels, e.g. with largest coefficient 7/64: dividing by the rounded hundredth and truncating loses one. `C107_largest_refuted`
42. `gaussian2D` calls `normalize`, which divides only row 0 by the sum (item on C44). With exact arithmetic the sum is one and nothing changes, but in double precision `gaussian2D(1.0,3)` has the sum `1+2^-52`, and its first row differs from its last. `C109_symmetric_refuted`
43. `localMean` multiplies in `float`: with scale `1.05f` a pixel 105 whose local mean is 100 is not `<=` the threshold, because the product is 104.99999. `C110_percent_refuted`; for scales 0.85 to 1.03 this does not happen (`C110_u8_partial`)
44. `ConfigLength::computeI` rounds 0.49999999999999994 to 1 (the comment in the source accepts this). `C110_width_refuted`
45. `GrowArray` and `PackedSet` own arrays but keep the implicit copy constructor (and `PackedSet` the implicit assignment): a copy and its original release the same array. `C112_copy_refuted`, `C112_packed_copy_refuted`
46. The kernel factories return `Kernel1D`/`Kernel2D` by value. The project is compiled as C++11, which permits but does not require copy elision; without it the returned kernel designates released memory. `C112_returned_refuted`
47. `computeOtsu` for `F32` computes the size of the histogram as `1+max_value - min_value` and the index of a pixel as `value - minValue`, both rounded to `float` and truncated. For a range of about -0.25 to 0.75 (exactly -1/4+5/2^26 to 3/4+1/2^24), or for 2^24-1 to 2^24, the largest pixel is counted one behind the end of the histogram. `C115_refuted`, `C115_large_refuted`
48. `Gray::reshape`, `Interleaved::reshape`, `setNumberOfBands` and `GrowArray::grow_array` release the old array before they allocate the new one. When that allocation throws `std::bad_alloc` the object keeps the old pointer and length: its destructor releases the array again and every access is undefined. `C116_reshape_refuted`, `C116_interleaved_refuted`, `C116_bands_refuted`, `C116_grow_refuted`; `GrowArray::resize` allocates first and is safe (`C116_array_history`)
49. `PackedSet` allocates an array of pointers and then the block. When the second allocation throws, the first is lost (constructor and `addBlock`). `C116_packed_leak_refuted`, `C116_packed_new_refuted`
50. Otsu's threshold of a picture (or of the local blocks) with only one value is 0, whatever the value is: a uniformly black picture is foreground (`down`), a uniformly dark grey one is background. `C117_global_refuted`, `C117_otsu_refuted`
51. Means of negative pixels are rounded toward zero, so the local mean threshold of a signed picture changes when a constant is added. `C117_signed_refuted`
52. Block filters put the remaining columns and rows into the last block, so they are not symmetric: the mirror image of a picture is divided elsewhere and thresholded differently. `C118_mirrored_refuted`
53. The two directions of the block min-max filter both give 1 in regions of low contrast, and the two directions of the local mean threshold with a scale below 1 both give 0 near the mean: "up" is not the complement of "down". `C118_minmax_complement_refuted`, `C118_localMean_complement_refuted`
54. Otsu's tuning moves the threshold down in one direction and up in the other, so with tuning the two directions both give 0 in between. `C118_otsu_complement_refuted`
55. A contour finder can be copied, but the copy has the same arrays: destroying both is undefined behaviour (`C122_copy_refuted`). When memory runs out in the constructor of a tracer the tables made before leak (`C122_oom_refuted`).
56. The mean blur of float images adds and subtracts along a row or column, so that one not-a-number makes every full window to the right of it not-a-number (`C124_mean_refuted`), one infinity likewise (`C124_mean_infinity_refuted`), two large pixels make them infinite (`C124_overflow_refuted`), and one bright pixel falsifies all of them: behind a pixel of 2^25 the average of ones is 1/3 (`C124_bright_refuted`). The minimum of an image of `+infinity` and not-a-number is the largest finite number (`C124_min_refuted`). The histogram and the Otsu filter are undefined for every float image with an infinite pixel or one which is not-a-number (`C124_otsu_refuted`).
57. `pixel_math.h` declares an empty class and has the include guard of `image_types.h`: a file which includes it first gets no image types at all. No file of the library includes it. It has no behaviour to model.

## 5. Trusted base

Lean's kernel; the axioms `propext`, `Classical.choice`, `Quot.sound` (every theorem depends on a subset of these); the
reading of the C++ and Java code recorded in the model's comments.

Modelled: `base_types.h`, `image_types.h`, `image_border.h`, `image_misc_ops.h`, `image_statistics.h`, `image_convert.h`,
`binary_ops.h`/`.cpp` (logic, erosion, thresholds, Otsu), `threshold_block_filters.h`, `convolve_kernels.h`, `convolve.h`,
`image_blur.h`, `config_types.h`, `geometry_types.h`, `sanity_checks.h`, `packed_sets.h`, `contour.h`/`contour.cpp`, and of `boofcpp-jni` the native
functions with `JNIBoofCPP.cpp` (wrapping of images, queues, kernels, packed sets) and the parts of the Java classes which choose their arguments,
`NativeUtils.java` and the static initialiser of `BoofCPP.java`; `print_structures.h`, and of the tests `testing_utils.h`.

Not modelled: compilation, template instantiation errors, rounding of floating point where a theorem says "exact arithmetic", the exponential
function (a parameter, with the real exponential as instance), random generators (parameters), look-up of Java classes, fields and methods, out of
memory (except in C116), garbage collection, threads (the library starts none; calls made by several threads of the caller are in C125, where accesses to memory are interleaved one by one, as C++ guarantees for programs without data races), `Planar` members that do not compile, the text which `printf` makes of a floating point number, performance and benchmarks. Of
the Java library the model assumes the behaviour of `GrowQueue_I32.resize` and `setTo`, of `GetPrimitiveArrayCritical` and its release, and of
array accesses.
