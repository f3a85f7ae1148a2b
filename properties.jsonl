{"id": "C01", "title": "ROI validation accepts exactly the rectangles that lie inside the image", "statement": "ValidateImageParameters(image, x, y, w, h) returns normally if and only if the image is not empty, has 1, 3 or 4 colour channels, w and h are positive and the mathematical rectangle [x, x+w) x [y, y+h) lies inside [0, width) x [0, height). It never accepts a rectangle whose 32-bit end coordinate wraps around.", "quantifier": "all images and all 32-bit values of x, y, w, h, including those where x+w or y+h exceeds 2^32", "why_tests_cant": "The interesting inputs are the 2^128 combinations around 32-bit wrap-around; unit tests sample a handful of small rectangles.", "anchors": ["src/parameter_validation.h: ValidateImageParameters, IsCorrectColorCount"]}
{"id": "C02", "title": "Multi-image validation implies every image contains its own ROI", "statement": "When the validation of several images with their own start points and one common size returns normally, every one of the images contains its own ROI; when any of them does not, the call throws. The form without a rectangle accepts exactly images that all hold data, have 1, 3 or 4 channels and equal sizes.", "quantifier": "all argument lists of two, three and four images with all 32-bit coordinates", "why_tests_cant": "Quantifies over unbounded geometry of several images at once.", "anchors": ["src/parameter_validation.h: ValidateImageParameters (variadic)"]}
{"id": "C03", "title": "Merging full rows into one long row never changes the set of processed pixels", "statement": "OptimiseRoi only ever replaces a (width, height) ROI by (width*height, 1) when every image passed to it has rows that are exactly width long, and then the addressed bytes, in order, are the same before and after; the product never overflows 32 bits.", "quantifier": "all widths, heights, and all sets of images", "why_tests_cant": "Needs all width/height pairs, in particular those next to the 32-bit overflow limit.", "anchors": ["src/parameter_validation.h: OptimiseRoi, IsFullImageRow"]}
{"id": "C04", "title": "Image storage invariant under any history of container calls", "statement": "After any sequence of construction, resize, clear, setColorCount, setAlignment, copy, move, swap, fill on images (whose row size fits 32 bits), each non-empty image owns a live block with at least rowSize*height elements, rowSize is at least width*colorCount and a multiple of the alignment, two different images never share a block, and an empty image has width, height and row size 0.", "quantifier": "all finite histories of API calls over any number of images, all sizes", "why_tests_cant": "It is an invariant over unbounded call histories; a test runs one history.", "anchors": ["src/image_buffer.h: ImageTemplate"]}
{"id": "C05", "title": "Copying an image gives an equal and independent image", "statement": "After b = a (different objects) b has the width, height, colour count, alignment and pixels of a; later writes through one image never change a pixel of the other.", "quantifier": "all images, all later writes", "why_tests_cant": "Independence must hold for all later writes at all positions.", "anchors": ["src/image_buffer.h: ImageTemplate::operator=, copy, ImageTemplate( const ImageTemplate & )"]}
{"id": "C06", "title": "Self copy-assignment keeps the image", "statement": "image = image (and Copy(image, image)) leaves the image unchanged.", "quantifier": "all non-empty images", "why_tests_cant": "Must hold for every image; the failing case is an aliasing corner case which the tests never exercise.", "anchors": ["src/image_buffer.h: ImageTemplate::copy, operator=", "src/image_function.cpp: Copy"]}
{"id": "C07", "title": "mutate only relabels storage it really owns", "statement": "When mutate(width, height, colorCount, alignment) returns true the new shape fits in the storage of the image; when it returns false nothing has changed.", "quantifier": "all images and all 32-bit shapes", "why_tests_cant": "The failing shapes are found only where rowSize*height wraps modulo 2^32.", "anchors": ["src/image_buffer.h: ImageTemplate::mutate"]}
{"id": "C08", "title": "Move and swap transfer ownership without loss", "statement": "Moving or swapping two images exchanges their complete observable contents; no storage is leaked, freed twice or shared.", "quantifier": "all pairs of images and all histories", "why_tests_cant": "Ownership must hold for all histories.", "anchors": ["src/image_buffer.h: ImageTemplate( ImageTemplate && ), operator=( ImageTemplate && ), swap"]}
{"id": "C09", "title": "AbsoluteDifference computes |a-b| on exactly the ROI", "statement": "Every output byte inside the ROI becomes the absolute difference of the two input bytes at the same ROI position and every other byte in memory keeps its value. Calls with parameters that do not fit throw an exception and modify nothing; no call touches memory outside the images.", "quantifier": "all well-formed images (any size below 4 GiB, any row padding), all ROIs, all pixel values; input and output may be different images or the same image with the same ROI", "why_tests_cant": "The claim covers every image size, ROI, row padding, alignment, colour count and pixel value, and also every byte outside the ROI; tests sample a few.", "anchors": ["src/image_function.cpp: AbsoluteDifference"]}
{"id": "C10", "title": "BitwiseAnd, BitwiseOr and BitwiseXor are bytewise on exactly the ROI", "statement": "Every output byte inside the ROI becomes the bitwise and / or / xor of the two input bytes at the same ROI position and every other byte in memory keeps its value. Calls with parameters that do not fit throw an exception and modify nothing; no call touches memory outside the images.", "quantifier": "all well-formed images (any size below 4 GiB, any row padding), all ROIs, all pixel values; input and output may be different images or the same image with the same ROI", "why_tests_cant": "The claim covers every image size, ROI, row padding, alignment, colour count and pixel value, and also every byte outside the ROI; tests sample a few.", "anchors": ["src/image_function.cpp: BitwiseAnd, BitwiseOr, BitwiseXor"]}
{"id": "C11", "title": "Maximum and Minimum are bytewise on exactly the ROI", "statement": "Every output byte inside the ROI becomes the larger (smaller) of the two input bytes and every other byte keeps its value. Calls with parameters that do not fit throw an exception and modify nothing; no call touches memory outside the images.", "quantifier": "all well-formed images (any size below 4 GiB, any row padding), all ROIs, all pixel values; input and output may be different images or the same image with the same ROI", "why_tests_cant": "The claim covers every image size, ROI, row padding, alignment, colour count and pixel value, and also every byte outside the ROI; tests sample a few.", "anchors": ["src/image_function.cpp: Maximum, Minimum"]}
{"id": "C12", "title": "Subtract is saturating subtraction on exactly the ROI", "statement": "Every output byte inside the ROI becomes max(a-b, 0) of the two input bytes at the same ROI position and every other byte keeps its value, whatever the row padding of the three images. Calls with parameters that do not fit throw an exception and modify nothing; no call touches memory outside the images.", "quantifier": "all well-formed images (any size below 4 GiB, any row padding), all ROIs, all pixel values; input and output may be different images or the same image with the same ROI", "why_tests_cant": "The claim covers every image size, ROI, row padding, alignment, colour count and pixel value, and also every byte outside the ROI; tests sample a few.", "anchors": ["src/image_function.cpp: Subtract"]}
{"id": "C13", "title": "Invert maps v to 255-v on exactly the ROI and is its own inverse", "statement": "Every output byte in the ROI becomes 255 minus the input byte; inverting twice gives the original image. Calls with parameters that do not fit throw an exception and modify nothing; no call touches memory outside the images.", "quantifier": "all well-formed images (any size below 4 GiB, any row padding), all ROIs, all pixel values; input and output may be different images or the same image with the same ROI", "why_tests_cant": "The claim covers every image size, ROI, row padding, alignment, colour count and pixel value, and also every byte outside the ROI; tests sample a few.", "anchors": ["src/image_function.cpp: Invert"]}
{"id": "C14", "title": "Threshold produces only 0 and 255 with the documented boundary", "statement": "One-value threshold gives 255 exactly where value >= threshold, two-value threshold gives 255 exactly where min <= value <= max, and 0 elsewhere. Calls with parameters that do not fit throw an exception and modify nothing; no call touches memory outside the images.", "quantifier": "all well-formed images (any size below 4 GiB, any row padding), all ROIs, all pixel values; input and output may be different images or the same image with the same ROI", "why_tests_cant": "The claim covers every image size, ROI, row padding, alignment, colour count and pixel value, and also every byte outside the ROI; tests sample a few.", "anchors": ["src/image_function.cpp: Threshold"]}
{"id": "C15", "title": "LookupTable maps every ROI byte through the table", "statement": "Every output byte in the ROI becomes table[input byte]; a table whose size is not 256 is rejected. Calls with parameters that do not fit throw an exception and modify nothing; no call touches memory outside the images.", "quantifier": "all well-formed images (any size below 4 GiB, any row padding), all ROIs, all pixel values; input and output may be different images or the same image with the same ROI", "why_tests_cant": "The claim covers every image size, ROI, row padding, alignment, colour count and pixel value, and also every byte outside the ROI; tests sample a few.", "anchors": ["src/image_function.cpp: LookupTable"]}
{"id": "C16", "title": "Copy of a ROI copies exactly that ROI", "statement": "Every output byte in the ROI becomes the input byte at the same ROI position and every other byte keeps its value. Calls with parameters that do not fit throw an exception and modify nothing; no call touches memory outside the images.", "quantifier": "all well-formed images (any size below 4 GiB, any row padding), all ROIs and pixel values; input and output rectangles share no byte", "why_tests_cant": "The claim covers every image size, ROI, row padding, alignment, colour count and pixel value, and also every byte outside the ROI; tests sample a few.", "anchors": ["src/image_function.cpp: Copy"]}
{"id": "C17", "title": "Fill writes exactly the ROI", "statement": "Every byte of the ROI becomes the fill value and every other byte keeps its value. Calls with parameters that do not fit throw an exception and modify nothing; no call touches memory outside the images.", "quantifier": "all well-formed images (any size below 4 GiB, any row padding), all ROIs, all pixel values; input and output may be different images or the same image with the same ROI", "why_tests_cant": "The claim covers every image size, ROI, row padding, alignment, colour count and pixel value, and also every byte outside the ROI; tests sample a few.", "anchors": ["src/image_function.cpp: Fill"]}
{"id": "C18", "title": "Flip mirrors the ROI", "statement": "The output pixel (x,y) is the input pixel mirrored in the requested axes; flipping twice with the same flags restores the image. Calls with parameters that do not fit throw an exception and modify nothing; no call touches memory outside the images.", "quantifier": "all gray-scale images with distinct storage, ROIs and all four flag combinations", "why_tests_cant": "The claim covers every image size, ROI, row padding, alignment, colour count and pixel value, and also every byte outside the ROI; tests sample a few.", "anchors": ["src/image_function.cpp: Flip"]}
{"id": "C19", "title": "Transpose swaps coordinates", "statement": "The output pixel (x,y) is the input pixel (y,x); transposing twice restores the ROI. Calls with parameters that do not fit throw an exception and modify nothing; no call touches memory outside the images.", "quantifier": "all gray-scale images with distinct storage and all ROIs", "why_tests_cant": "The claim covers every image size, ROI, row padding, alignment, colour count and pixel value, and also every byte outside the ROI; tests sample a few.", "anchors": ["src/image_function.cpp: Transpose"]}
{"id": "C20", "title": "ExtractChannel, Split and Merge are inverse to each other", "statement": "ExtractChannel(c) outputs channel c of each pixel; Split outputs the three channels; Merge of the three channels restores the colour image. Calls with parameters that do not fit throw an exception and modify nothing; no call touches memory outside the images.", "quantifier": "all RGB images, gray-scale images with distinct storage and all ROIs", "why_tests_cant": "The claim covers every image size, ROI, row padding, alignment, colour count and pixel value, and also every byte outside the ROI; tests sample a few.", "anchors": ["src/image_function.cpp: ExtractChannel, Split, Merge"]}
{"id": "C21", "title": "RgbToBgr swaps the outer channels and is its own inverse", "statement": "The output pixel is (B,G,R) for the input pixel (R,G,B), in place as well. Calls with parameters that do not fit throw an exception and modify nothing; no call touches memory outside the images.", "quantifier": "all well-formed images (any size below 4 GiB, any row padding), all ROIs, all pixel values; input and output may be different images or the same image with the same ROI", "why_tests_cant": "The claim covers every image size, ROI, row padding, alignment, colour count and pixel value, and also every byte outside the ROI; tests sample a few.", "anchors": ["src/image_function.cpp: RgbToBgr"]}
{"id": "C22", "title": "ConvertToRgb replicates gray values and ConvertToGrayScale averages", "statement": "ConvertToRgb of a gray-scale image writes the gray value in all three channels; ConvertToGrayScale of an RGB image writes the mean of the channels rounded down; gray -> RGB -> gray is the identity. Calls with parameters that do not fit throw an exception and modify nothing; no call touches memory outside the images.", "quantifier": "all gray-scale and RGB images with distinct storage and all ROIs", "why_tests_cant": "The claim covers every image size, ROI, row padding, alignment, colour count and pixel value, and also every byte outside the ROI; tests sample a few.", "anchors": ["src/image_function.cpp: ConvertToRgb, ConvertToGrayScale"]}
{"id": "C23", "title": "RgbToRgba and RgbaToRgb keep the colours", "statement": "RgbToRgba keeps R,G,B and sets alpha to 255, RgbaToRgb drops alpha, and RGB -> RGBA -> RGB is the identity. Calls with parameters that do not fit throw an exception and modify nothing; no call touches memory outside the images.", "quantifier": "all RGB/RGBA images with distinct storage and all ROIs", "why_tests_cant": "The claim covers every image size, ROI, row padding, alignment, colour count and pixel value, and also every byte outside the ROI; tests sample a few.", "anchors": ["src/image_function.cpp: RgbToRgba, RgbaToRgb"]}
{"id": "C24", "title": "Histogram counts pixels exactly", "statement": "For a gray-scale ROI the histogram has 256 entries, entry v is the number of ROI pixels with value v and the entries sum up to width*height; for colour images every byte of the ROI is counted. Calls with parameters that do not fit throw an exception and modify nothing; no call touches memory outside the images.", "quantifier": "all images of any colour count and all ROIs", "why_tests_cant": "The claim covers every image size, ROI, row padding, alignment, colour count and pixel value, and also every byte outside the ROI; tests sample a few.", "anchors": ["src/image_function.cpp: Histogram"]}
{"id": "C25", "title": "Sum equals the exact sum of the ROI modulo 2^32", "statement": "Sum returns the sum of all ROI bytes modulo 2^32, which is the exact sum if width*height*255 < 2^32, and equals the histogram-weighted sum. Calls with parameters that do not fit throw an exception and modify nothing; no call touches memory outside the images.", "quantifier": "all gray-scale images and ROIs", "why_tests_cant": "The claim covers every image size, ROI, row padding, alignment, colour count and pixel value, and also every byte outside the ROI; tests sample a few.", "anchors": ["src/image_function.cpp: Sum"]}
{"id": "C26", "title": "ProjectionProfile gives column and row sums", "statement": "The horizontal profile is the list of column sums, the vertical profile the list of row sums, and both profiles of a gray-scale ROI add up to the same total. Calls with parameters that do not fit throw an exception and modify nothing; no call touches memory outside the images.", "quantifier": "all images and ROIs", "why_tests_cant": "The claim covers every image size, ROI, row padding, alignment, colour count and pixel value, and also every byte outside the ROI; tests sample a few.", "anchors": ["src/image_function.cpp: ProjectionProfile"]}
{"id": "C27", "title": "Accumulate adds the ROI to the running array", "statement": "After Accumulate entry y*width+x of the array grew by the pixel value at (x,y); an array of the wrong size is rejected unchanged. Calls with parameters that do not fit throw an exception and modify nothing; no call touches memory outside the images.", "quantifier": "all gray-scale images, ROIs, previous accumulator contents", "why_tests_cant": "The claim covers every image size, ROI, row padding, alignment, colour count and pixel value, and also every byte outside the ROI; tests sample a few.", "anchors": ["src/image_function.cpp: Accumulate"]}
{"id": "C28", "title": "IsEqual decides pixel equality of the ROIs", "statement": "IsEqual returns true if and only if all bytes of the two ROIs agree; padding bytes never matter. Calls with parameters that do not fit throw an exception and modify nothing; no call touches memory outside the images.", "quantifier": "all pairs of images with the same colour count and all ROIs", "why_tests_cant": "The claim covers every image size, ROI, row padding, alignment, colour count and pixel value, and also every byte outside the ROI; tests sample a few.", "anchors": ["src/image_function.cpp: IsEqual"]}
{"id": "C29", "title": "IsBinary decides whether a ROI has at most two values", "statement": "IsBinary returns true if and only if the ROI contains at most two different values. Calls with parameters that do not fit throw an exception and modify nothing; no call touches memory outside the images.", "quantifier": "all gray-scale images and ROIs", "why_tests_cant": "The claim covers every image size, ROI, row padding, alignment, colour count and pixel value, and also every byte outside the ROI; tests sample a few.", "anchors": ["src/image_function.cpp: IsBinary"]}
{"id": "C30", "title": "GetPixel and SetPixel address one pixel", "statement": "SetPixel changes exactly one byte, GetPixel returns it, and both reject coordinates outside the image. Calls with parameters that do not fit throw an exception and modify nothing; no call touches memory outside the images.", "quantifier": "all gray-scale images and all coordinates", "why_tests_cant": "The claim covers every image size, ROI, row padding, alignment, colour count and pixel value, and also every byte outside the ROI; tests sample a few.", "anchors": ["src/image_function.cpp: GetPixel, SetPixel"]}
{"id": "C31", "title": "Resize is nearest-neighbour sampling inside the input ROI", "statement": "The output pixel (x,y) is the input pixel (x*widthIn/widthOut, y*heightIn/heightOut) and no byte outside the output ROI changes. Calls with parameters that do not fit throw an exception and modify nothing; no call touches memory outside the images.", "quantifier": "all images with equal colour count, ROIs and output sizes", "why_tests_cant": "The claim covers every image size, ROI, row padding, alignment, colour count and pixel value, and also every byte outside the ROI; tests sample a few.", "anchors": ["src/image_function.cpp: Resize"]}
{"id": "C32", "title": "BinaryDilate and BinaryErode are morphological dilation and erosion", "statement": "On a 0/255 image the result at a pixel is 255 iff some (dilate) / every (erode) pixel of the ROI within the given horizontal and vertical distance is 255; the distance in each direction is limited to half the ROI size. Calls with parameters that do not fit throw an exception and modify nothing; no call touches memory outside the images.", "quantifier": "all 0/255 gray-scale images, ROIs, and dilation sizes", "why_tests_cant": "The claim covers every image size, ROI, row padding, alignment, colour count and pixel value, and also every byte outside the ROI; tests sample a few.", "anchors": ["src/image_function.cpp: BinaryDilate, BinaryErode, Dilate"]}
{"id": "C33", "title": "16-bit conversion round trip", "statement": "ConvertTo16Bit followed by ConvertTo8Bit restores every ROI byte, for any ROI and colour count. Calls with parameters that do not fit throw an exception and modify nothing; no call touches memory outside the images.", "quantifier": "all 8-bit images and ROIs", "why_tests_cant": "The claim covers every image size, ROI, row padding, alignment, colour count and pixel value, and also every byte outside the ROI; tests sample a few.", "anchors": ["src/image_function.cpp: ConvertTo16Bit, ConvertTo8Bit"]}
{"id": "C34", "title": "Normalize stretches to the full range monotonically", "statement": "Normalize keeps the order of pixel values, maps the ROI minimum to 0 and the ROI maximum to 255, and copies constant images. Calls with parameters that do not fit throw an exception and modify nothing; no call touches memory outside the images.", "quantifier": "all gray-scale images and ROIs", "why_tests_cant": "The claim covers every image size, ROI, row padding, alignment, colour count and pixel value, and also every byte outside the ROI; tests sample a few.", "anchors": ["src/image_function.cpp: Normalize"]}
{"id": "C35", "title": "GetThreshold (Otsu) maximises the between-class variance", "statement": "For a histogram of 256 entries with at least one pixel the returned threshold is an index whose between-class variance (as computed) is maximal and the function never divides by zero; other histogram sizes are rejected.", "quantifier": "all histograms", "why_tests_cant": "Quantifies over all 256-entry histograms.", "anchors": ["src/image_function_helper.cpp: GetThreshold"]}
{"id": "C36", "title": "Images bigger than 4 GiB are processed like small ones", "statement": "Pixel functions give the same per-pixel result when height*rowSize is 2^32 or more.", "quantifier": "all images whose storage size is at least 2^32 bytes", "why_tests_cant": "Such images cannot be allocated in a unit test run.", "anchors": ["src/image_function.cpp: Fill, Invert and all row loops"]}
{"id": "C37", "title": "Pool allocations never overlap", "statement": "At any time the blocks handed out by the memory pool and not yet freed are pairwise disjoint, lie inside the reserved region and are at least as large as requested.", "quantifier": "all histories of reserve, allocate and free with all request sizes whose byte count fits in size_t", "why_tests_cant": "Invariant over unbounded histories of allocation and release in any order.", "anchors": ["src/memory/cpu_memory.h: MemoryAllocator", "src/memory/memory_allocator.h: BaseMemoryAllocator"]}
{"id": "C38", "title": "Pool memory is conserved", "statement": "The free chunks and the allocated chunks always partition the reserved region: no byte is lost and none is counted twice, in any order of release.", "quantifier": "all histories", "why_tests_cant": "Invariant over unbounded histories.", "anchors": ["src/memory/memory_allocator.h: _split, _merge"]}
{"id": "C39", "title": "After everything is freed the whole pool is available again", "statement": "When all blocks have been freed, an allocation that fitted in the fresh pool is served from the pool again.", "quantifier": "all histories ending with every block freed", "why_tests_cant": "Needs all orders of release.", "anchors": ["src/memory/memory_allocator.h: _merge"]}
{"id": "C40", "title": "Pool blocks are aligned for their element type", "statement": "allocate<T> returns an address that is suitably aligned for T.", "quantifier": "all histories and element sizes that are powers of two", "why_tests_cant": "Needs all histories.", "anchors": ["src/memory/cpu_memory.h: allocate", "src/memory/memory_allocator.h: _merge"]}
{"id": "C41", "title": "A refused reserve leaves the allocator usable", "statement": "If reserve() throws because memory is in use, later allocate and free calls still return.", "quantifier": "all allocator states", "why_tests_cant": "Failure path with a held lock; a test would hang.", "anchors": ["src/memory/cpu_memory.h: _allocate"]}
{"id": "C42", "title": "Every task of a run is executed exactly once", "statement": "In every interleaving of any number of workers, a provider run with n tasks executes each task id 0..n-1 exactly once before wait returns.", "quantifier": "all numbers of workers, tasks and providers and all schedules; any number of consecutive runs as long as a provider's task count does not decrease (for decreasing counts see C46)", "why_tests_cant": "Schedules are unbounded; tests see a few.", "anchors": ["src/thread_pool.cpp: AbstractTaskProvider::_taskRun, ThreadPool::_workerThread, ThreadPool::add"]}
{"id": "C43", "title": "wait returns only after all tasks of the run have completed and reports failures", "statement": "wait returns only when every task of the run has completed and returns false iff at least one of them threw.", "quantifier": "all schedules", "why_tests_cant": "All schedules.", "anchors": ["src/thread_pool.cpp: AbstractTaskProvider::_wait, _taskRun"]}
{"id": "C44", "title": "No lost wake-up: a run always finishes", "statement": "While a started run is incomplete, some worker can always make a step (no deadlock), so under a fair scheduler wait returns.", "quantifier": "all schedules", "why_tests_cant": "Deadlock freedom needs all schedules.", "anchors": ["src/thread_pool.cpp: ThreadPool::_workerThread, add, _wait"]}
{"id": "C45", "title": "Clearing or stopping the pool releases waiting providers", "statement": "After ThreadPool::clear() or stop() a provider whose tasks were pending can still finish wait(), and none of the pending tasks' bodies is run by clear().", "quantifier": "all pool states", "why_tests_cant": "Hanging is not observable by a terminating test.", "anchors": ["src/thread_pool.cpp: ThreadPool::clear, stop"]}
{"id": "C46", "title": "A provider can be run again safely", "statement": "When a provider is run a second time, wait of the second run returns only after all tasks of the second run completed.", "quantifier": "all schedules of two consecutive runs", "why_tests_cant": "The failing schedule needs a precise preemption.", "anchors": ["src/thread_pool.cpp: AbstractTaskProvider::_taskRun, TaskProvider::_run"]}
{"id": "C47", "title": "A stopped pool can be started again", "statement": "After stop(), resize(n) gives a pool that executes tasks again.", "quantifier": "all pool histories", "why_tests_cant": "A failing pool hangs.", "anchors": ["src/thread_pool.cpp: ThreadPool::stop, resize, _workerThread"]}
{"id": "C48", "title": "Work splitting is a partition of the ROI", "statement": "The tiles produced for any ROI and thread count are non-empty, pairwise disjoint, inside the ROI and cover it; input and output tiles have the same relative position.", "quantifier": "all ROIs and thread counts", "why_tests_cant": "All sizes and counts.", "anchors": ["src/function_pool_task.cpp: AreaInfo::_calculate, _fill, _copy"]}
{"id": "C49", "title": "The thread-pooled pixel functions equal the single-threaded ones for every schedule", "statement": "For pointwise functions executing the tile tasks in any interleaving gives the same memory as one single-threaded call.", "quantifier": "all images, ROIs, thread counts, schedules", "why_tests_cant": "Schedules and tilings are unbounded.", "anchors": ["src/function_pool.cpp", "src/function_pool_task.cpp"]}
{"id": "C50", "title": "Pooled Sum, Histogram, ProjectionProfile and IsEqual equal the single-threaded results", "statement": "Combining the per-tile results gives the result of the single-threaded function.", "quantifier": "all images, ROIs and thread counts", "why_tests_cant": "Tilings are unbounded.", "anchors": ["src/function_pool.cpp: OutputInfo, _task"]}
{"id": "C51", "title": "SIMD kernels equal the scalar functions", "statement": "For every vector width the SIMD path of AbsoluteDifference, bitwise operations, Invert, Maximum, Minimum, Subtract, Threshold, Sum, ProjectionProfile and Accumulate gives exactly the result of the scalar path and touches no memory outside the ROI.", "quantifier": "all images, ROIs and widths incl. remainders", "why_tests_cant": "All widths, remainders and values.", "anchors": ["src/image_function_simd.cpp"]}
{"id": "C52", "title": "SIMD 16-bit conversion equals the scalar one", "statement": "The SIMD ConvertTo16Bit gives the same values as the scalar ConvertTo16Bit.", "quantifier": "all images and ROIs", "why_tests_cant": "All values.", "anchors": ["src/image_function_simd.cpp: ConvertTo16Bit"]}
{"id": "C53", "title": "Blob detection returns exactly the 8-connected components", "statement": "Without filtering parameters every ROI pixel >= threshold belongs to exactly one returned blob, listed once, two pixels are in the same blob iff they are connected by 8-neighbour steps through such pixels in the ROI, and the search always terminates.", "quantifier": "all gray-scale images and thresholds, all ROIs with (width + 2) * (height + 2) < 2^32", "why_tests_cant": "Connected components over all images.", "anchors": ["src/blob_detection.cpp: BlobDetection::find"]}
{"id": "C54", "title": "Blob edges and contours are boundary pixels of the blob", "statement": "Edge points of a blob are exactly its pixels with an 8-neighbour outside of the blob, contour points are edge points reachable from the first pixel through edge points; the contour has every pixel of the blob next to the outer background.", "quantifier": "all gray-scale images and thresholds, all ROIs with (width + 2) * (height + 2) < 2^32", "why_tests_cant": "All images.", "anchors": ["src/blob_detection.cpp: BlobDetection::find"]}
{"id": "C55", "title": "Median filter returns the window median", "statement": "Every interior output pixel is the median of the kernelSize x kernelSize window, border pixels are copied, no access is out of bounds.", "quantifier": "all images, ROIs, odd kernel sizes", "why_tests_cant": "All images.", "anchors": ["src/filtering.cpp: Median"]}
{"id": "C56", "title": "Sobel and Prewitt stay inside the image", "statement": "Sobel and Prewitt read only pixels of the image and table entries inside the table, and write exactly the output ROI.", "quantifier": "all images and ROIs", "why_tests_cant": "All ROIs at all border positions.", "anchors": ["src/filtering.cpp: Prewitt, Sobel"]}
{"id": "C57", "title": "Edge detection stays inside the ROI", "statement": "Edge detection never reads outside of the image for any parameters accepted by verify(), and found edge positions lie inside the scan line and are at least one pixel apart.", "quantifier": "all images, ROIs and parameters", "why_tests_cant": "All parameter values including 32-bit wrap.", "anchors": ["src/edge_detection.cpp"]}
{"id": "C58", "title": "BMP save/load round trip", "statement": "Loading a file written by Save gives an image of the same size, colour count and pixels.", "quantifier": "all images and ROIs", "why_tests_cant": "All images.", "anchors": ["src/file/bmp_image.cpp: Save, Load"]}
{"id": "C59", "title": "Raw save/load round trip", "statement": "Loading a raw file written by Save with the same dimensions gives the same pixels.", "quantifier": "all images", "why_tests_cant": "All images.", "anchors": ["src/file/raw_image.h: Save, Load"]}
{"id": "C60", "title": "Byte swap of raw images is an involution", "statement": "LittleEndianToBigEndian reverses the bytes of each element and applying it twice restores the image.", "quantifier": "all images and element sizes", "why_tests_cant": "All values.", "anchors": ["src/file/raw_image.h: LittleEndianToBigEndian"]}
{"id": "C61", "title": "getMatrixRoots solves the linear system", "statement": "In exact arithmetic, whenever getMatrixRoots returns, the roots satisfy the given linear system.", "quantifier": "all square matrices and right-hand sides", "why_tests_cant": "All matrices of all sizes.", "anchors": ["src/math/math_base.cpp: getMatrixRoots"]}
{"id": "C62", "title": "The Haar transform is inverted by the inverse Haar transform", "statement": "In exact arithmetic HaarInverseTransform(HaarDirectTransform(v)) = v.", "quantifier": "all inputs of even width and height", "why_tests_cant": "All sizes and values.", "anchors": ["src/math/haar_transform.cpp"]}
{"id": "C63", "title": "The Hough transform partitions the points", "statement": "Every input point is put in exactly one of the two output lists, order kept.", "quantifier": "all point lists and parameters", "why_tests_cant": "All inputs.", "anchors": ["src/math/hough_transform.cpp"]}
{"id": "C64", "title": "Light correction flattens the analysed image", "statement": "After analyze(image), correct(image) turns every pixel between the analysed minimum and maximum into exactly the maximum; correct on another image of the same size multiplies each pixel by the maximum divided by the analysed pixel, rounded and limited to 255; dividing by zero or access outside of the table never happens.", "quantifier": "all images", "why_tests_cant": "All values.", "anchors": ["src/tool/light_correction.cpp"]}
{"id": "C65", "title": "Frequency image quadrant swap is a permutation", "statement": "ComplexData::get() writes every output pixel exactly once.", "quantifier": "all widths and heights", "why_tests_cant": "All sizes.", "anchors": ["src/fft.cpp: ComplexData::get"]}
{"id": "C66", "title": "Image type manager hands out only registered functions", "statement": "A function call on an image type calls the function registered for that type, or with conversion enabled one registered for some type, or throws; references handed to it stay valid during the call.", "quantifier": "all registration histories", "why_tests_cant": "All histories.", "anchors": ["src/penguinv/penguinv.cpp", "src/penguinv/image_manager.h", "src/image_function_helper.cpp: ImageTypeManager"]}
{"id": "C67", "title": "ReplaceChannel changes exactly one channel", "statement": "Channel c of every ROI pixel becomes the gray value at the same ROI position; the other two channels and every other byte keep their values; a channel index above 2 is rejected. Calls with parameters that do not fit throw an exception and modify nothing; no call touches memory outside the images.", "quantifier": "all RGB images, gray-scale images with distinct storage, ROIs and channel indices", "why_tests_cant": "The claim covers every image size, ROI, row padding, alignment, colour count and pixel value, and also every byte outside the ROI; tests sample a few.", "anchors": ["src/image_function.cpp: ReplaceChannel"]}
{"id": "C68", "title": "A provider with pending tasks can be destroyed", "statement": "Destroying a task provider while some of its tasks have not been started yet returns after the tasks already started have completed.", "quantifier": "all pool states and schedules", "why_tests_cant": "the number of interleavings is unbounded and a hang shows up only in some of them", "anchors": ["src/thread_pool.cpp: TaskProvider::~TaskProvider, AbstractTaskProvider::~AbstractTaskProvider, ThreadPool::remove"]}
{"id": "C69", "title": "A provider can be destroyed as soon as its wait has returned", "statement": "After wait has returned no worker thread accesses the provider any more.", "quantifier": "all numbers of workers, tasks and providers and all schedules", "why_tests_cant": "a use after destruction in one rare interleaving is not observable by tests", "anchors": ["src/thread_pool.cpp: AbstractTaskProvider::_taskRun, AbstractTaskProvider::_wait"]}
{"id": "C70", "title": "Construction, resize and fill give the requested image", "statement": "Construction and resize to positive sizes give an image of exactly the requested width and height with storage, keep the colour count, the alignment and every other image, and change nothing for the size the image has already; fill sets every element of the image and nothing else.", "quantifier": "all reachable program states, all sizes whose row size fits 32 bits", "why_tests_cant": "it must hold for all histories and sizes", "anchors": ["src/image_buffer.h: ImageTemplate::ImageTemplate, resize, fill"]}
{"id": "C71", "title": "Blob filters keep exactly the blobs within the limits", "statement": "With limits on size, width and height the result is the list of blobs found without limits, in the same order, without those whose number of points, or whose horizontal or vertical extent of the contour, is outside of the limits; limits with minimum above maximum are rejected before anything is done.", "quantifier": "all gray-scale images, thresholds and limits, all ROIs with (width + 2) * (height + 2) < 2^32", "why_tests_cant": "the number of limits and images is unbounded", "anchors": ["src/blob_detection.cpp: BlobDetection::find, BlobInfo::_getWidth, BlobInfo::_getHeight", "src/blob_detection.h: Parameter"]}
{"id": "C72", "title": "Every valid ROI can be searched for blobs", "statement": "A search in any ROI inside a gray-scale image ends with a list of blobs.", "quantifier": "all gray-scale images and ROIs", "why_tests_cant": "the failing ROIs are above 4 billion pixels", "anchors": ["src/blob_detection.cpp: BlobDetection::find"]}
{"id": "C73", "title": "Resize refuses images with different colour counts", "statement": "A call of Resize with images of different colour counts throws an exception and touches no memory outside the images.", "quantifier": "all pairs of images with different colour counts, all ROIs", "why_tests_cant": "needs the combination of every pair of colour counts, ROI and memory layout", "anchors": ["src/image_function.cpp: Resize"]}
{"id": "C74", "title": "GammaCorrection is a monotone function of the value", "statement": "Every output byte is a function of the input byte that keeps the order of values; black stays black, white stays white for a >= 1, and a = gamma = 1 copies the image. Negative parameters are refused. Calls with parameters that do not fit throw an exception and modify nothing; no call touches memory outside the images.", "quantifier": "all images, ROIs, parameters and roundings of floating-point operations", "why_tests_cant": "The claim covers every image size, ROI, row padding, alignment, colour count and pixel value, and also every byte outside the ROI; tests sample a few.", "anchors": ["src/image_function.cpp: GammaCorrection", "src/image_function_helper.cpp: GetGammaCorrectionLookupTable"]}
{"id": "C75", "title": "GetThreshold finds the best split", "statement": "For the histogram of any image with at least two values the threshold has the largest between-class variance of all splits.", "quantifier": "all histograms of images, exact arithmetic", "why_tests_cant": "the sums overflow for images above 16 million pixels only", "anchors": ["src/image_function_helper.cpp: GetThreshold"]}
{"id": "C76", "title": "SIMD conversion to 8 bits equals the scalar one", "statement": "The SIMD ConvertTo8Bit gives the same values as the scalar ConvertTo8Bit and touches no memory outside of the images.", "quantifier": "all 16-bit and 8-bit images, ROIs, widths and vector units", "why_tests_cant": "all widths, remainders and pixel orders", "anchors": ["src/image_function_simd.cpp: ConvertTo8Bit"]}
{"id": "C77", "title": "SIMD ConvertToRgb, Flip and RgbToBgr equal the scalar functions", "statement": "For every vector unit the three functions write exactly the output ROI, with exactly the values the scalar functions write, touch no memory outside of the images and refuse the same calls.", "quantifier": "all images, ROIs, widths and vector units", "why_tests_cant": "all widths and remainders; a register store reaches over the pixels it is meant for", "anchors": ["src/image_function_simd.cpp: ConvertToRgb, Flip, RgbToBgr"]}
{"id": "C78", "title": "Gradient tables are built with defined conversions only", "statement": "Building the lookup table of Prewitt and of Sobel converts only numbers in the range of uint8_t, and the entry for the strongest possible gradient is 255.", "quantifier": "all table indices, all floating-point errors below 0.4", "why_tests_cant": "All 589824 and 1048576 entries, independent of the rounding of sqrtf.", "anchors": ["src/filtering.cpp: FilterKernel"]}
{"id": "C79", "title": "Gaussian kernel is normalised and centred", "statement": "GetGaussianKernel writes only inside the vector it resizes; the entries within kernelSize of the centre are exp(-(dx^2+dy^2)/(2 sigma)) divided by their sum, so they add up to 1 (exact arithmetic); all other entries are 0; no signed overflow occurs.", "quantifier": "all sizes, kernel sizes and sigma accepted by the parameter check", "why_tests_cant": "All sizes including 32-bit wrap of 2 * kernelSize + 1 and width * height.", "anchors": ["src/filtering.cpp: GetGaussianKernel"]}
{"id": "C80", "title": "Hough transform finds the best line", "statement": "The points HoughTransform reports as being on the line are exactly the input points within the line tolerance of one line whose angle was searched, and no line of any searched angle has more input points within the tolerance.", "quantifier": "all point lists and parameters", "why_tests_cant": "Optimality over all lines of all angles cannot be sampled.", "anchors": ["src/math/hough_transform.cpp"]}
{"id": "C81", "title": "Incorrect pixels are reported exactly", "statement": "findIncorrectPixels returns exactly the positions of the pixels which are 0 or 255, row by row from left to right, each once, and never reads outside of the image.", "quantifier": "all images and analysed sizes", "why_tests_cant": "All pixel values and sizes.", "anchors": ["src/tool/light_correction.cpp: findIncorrectPixels"]}
{"id": "C82", "title": "Complex data take over exactly the given values", "statement": "ComplexData::set with a gray-scale image stores its pixels row by row without padding, with zero imaginary parts; with a vector of width * height values it stores those; everything else is refused without changing the object.", "quantifier": "all images, vectors and object sizes", "why_tests_cant": "All values and row sizes.", "anchors": ["src/fft.cpp: ComplexData::set"]}
{"id": "C83", "title": "complexMultiplication multiplies complex numbers", "statement": "complexMultiplication stores the product of the two input values in every output value, also when the output is one of the inputs, and changes nothing else; objects of different sizes are refused.", "quantifier": "all complex data and all ways the three arguments may be the same object", "why_tests_cant": "All values and aliasings.", "anchors": ["src/fft.cpp: FFTExecutor::complexMultiplication"]}
{"id": "C84", "title": "Lines contain what they are built from; intersections are unique", "statement": "A line built from two different points contains both, a shifted line contains exactly the shifted points; intersection returns the only common point of two lines and reports none exactly for lines isParallel calls parallel (exact arithmetic).", "quantifier": "all points, angles and lines", "why_tests_cant": "Real-number geometry for all inputs.", "anchors": ["src/math/math_base.h: LineBase2D"]}
{"id": "C85", "title": "Distance and projection agree with geometry", "statement": "distance is the distance to the nearest point of the line, projection is that point, opposite is the mirror image: applying it twice gives the point back (exact arithmetic).", "quantifier": "all lines and points", "why_tests_cant": "Minimality over all points of a line cannot be sampled.", "anchors": ["src/math/math_base.h: LineBase2D::distance, projection, opposite"]}
{"id": "C86", "title": "bestFittingLine is the least-squares line", "statement": "For two or more points bestFittingLine returns the line with the least sum of squared vertical distances if the points spread more in x than in y, otherwise of squared horizontal distances (exact arithmetic).", "quantifier": "all lists of two or more points", "why_tests_cant": "Optimality over all lines.", "anchors": ["src/math/math_base.h: LineBase2D::bestFittingLine"]}
{"id": "C87", "title": "Registration order does not matter", "statement": "A function registered with force for an image type (the SIMD functions) is the one called for this type, whether the functions registered without force came before or after it; registering the two tables in either order has the same effect.", "quantifier": "all function tables and registration histories", "why_tests_cant": "All histories of calls of all functions.", "anchors": ["src/image_function_helper.cpp: setupTable, ImageTypeManager::setFunctionTable"]}
{"id": "C88", "title": "Calls with converted images have the effect of the function", "statement": "With conversion enabled, a call on images of a type without the function has on the images the effect of the function found for another type: inputs are not changed, the output gets the result and keeps its type, references passed stay valid; if a conversion is missing there is an exception and no image changes.", "quantifier": "all functions, image types, registered conversions, argument evaluation orders and growth strategies of std::vector", "why_tests_cant": "All registrations and orders of evaluation.", "anchors": ["src/penguinv/image_manager.h: ImageManager", "src/penguinv/penguinv.cpp"]}
{"id": "C89", "title": "Loading any file as bitmap is memory safe", "statement": "Whatever bytes a file contains, Load of a bitmap returns either an image without pixels, with nothing changed, or an image of the size written in the file, in a new block of exactly this size; it never accesses memory outside of its own, and changes no other image and no file.  It returns pixels exactly for files with a correct header of the supported kinds and the matching length.", "quantifier": "all byte sequences as file contents", "why_tests_cant": "Hostile headers with all 32-bit values; tests only have some files.", "anchors": ["src/file/bmp_image.cpp: Load"]}
{"id": "C90", "title": "Pixels loaded are the pixels of the file", "statement": "Every pixel of an image loaded from a bitmap file has the colours the file gives it: the bytes of the file for gray-scale, three and four colours, the entry of the colour table for 256-colour images, with rows in the order the sign of the height says.", "quantifier": "all valid bitmap files and all pixels", "why_tests_cant": "All sizes, row paddings, colour tables and both row orders.", "anchors": ["src/file/bmp_image.cpp: Load, flipData"]}
{"id": "C91", "title": "An ideal step is found exactly", "statement": "If all lines of the ROI have one value before and another value from a pixel on, at least two pixels away from both ends and with at least the minimum contrast, edge detection finds exactly one edge per group of lines, halfway between the two pixels in scan direction and in the middle of the group: a positive edge if values grow in the direction of the scan, otherwise a negative one.", "quantifier": "all sizes, offsets, grey values, step positions, directions and parameters", "why_tests_cant": "All positions, contrasts, groups and rounding of the results.", "anchors": ["src/edge_detection.cpp: findEdgePoints, getEdgePoints, find"]}
{"id": "C92", "title": "Edge detection treats rows and columns alike", "statement": "Transposing the image together with the direction gives the same points with exchanged coordinates, in the same order.", "quantifier": "all images, ROIs and parameters", "why_tests_cant": "All images; the two directions are separate code.", "anchors": ["src/edge_detection.cpp: find"]}
{"id": "C93", "title": "Scanning from the opposite side finds the same edges", "statement": "With the direction reversed, positive and negative exchanged and first and last exchanged, edge detection returns the same points with positive and negative edges exchanged.", "quantifier": "all images, ROIs and parameters", "why_tests_cant": "All images and parameters.", "anchors": ["src/edge_detection.cpp: findEdgePoints, find"]}
{"id": "C94", "title": "FIRST and LAST select from ALL", "statement": "For every line the edge found with FIRST is the one of those found with ALL nearest to the start of the scan, the one with LAST is the farthest; lines with an edge in ALL have one in both.", "quantifier": "all images, ROIs and parameters", "why_tests_cant": "All images and numbers of edges per line.", "anchors": ["src/edge_detection.cpp: findEdgePoints, leaveFirstElement, leaveLastElement"]}
{"id": "C95", "title": "Rotate reads only its region", "statement": "Whatever the angle and the centres, Rotate ends, changes only the output region, and every pixel it writes is zero or lies between four neighbouring pixels of the input region; pixels outside of the input region have no influence. Regions that do not fit and colour images are rejected.", "quantifier": "all images, regions, angles and centres within 32-bit range, all rounding errors of double arithmetic", "why_tests_cant": "All positions, angles and accumulated rounding errors; an index one too large needs a particular angle.", "anchors": ["src/image_function.cpp: Rotate"]}
{"id": "C96", "title": "Rotation by zero changes nothing", "statement": "Rotating by an angle of zero copies the region, in all forms of the call.", "quantifier": "all images, regions and centres", "why_tests_cant": "All sizes and centres.", "anchors": ["src/image_function.cpp: Rotate", "src/image_function_helper.cpp: Rotate"]}
{"id": "C97", "title": "Rotate is a rotation", "statement": "The pixel (k, l) of the output is the bilinear interpolation of the input at the point which the rotation about the centres puts there; the point is missed by no more than accumulated rounding errors, and the value by no more than 1/2 plus 2^-36.", "quantifier": "all images, regions, angles and centres within 32-bit range, all rounding errors of double arithmetic", "why_tests_cant": "Error accumulation over all sizes and angles.", "anchors": ["src/image_function.cpp: Rotate"]}
{"id": "C98", "title": "Shift reads only its image", "statement": "Shift ends, reads only pixels of the input image and changes only the output region; every pixel it writes is zero or lies between four neighbouring pixels of the image. Shifts by more than the size minus one are rejected.", "quantifier": "all images, regions, shifts, all rounding errors of double arithmetic", "why_tests_cant": "Reading one row too much goes unnoticed in most runs.", "anchors": ["src/image_function.cpp: Shift"]}
{"id": "C99", "title": "Shift by a fraction interpolates", "statement": "Shift by (sx, sy) puts at (k, l) the bilinear interpolation at (k - sx, l - sy), with an error of at most 1/2 + 1/32, and zero where this point is outside of the image.", "quantifier": "all images, regions, fractional shifts, all rounding errors of double arithmetic", "why_tests_cant": "All fractions and positions of the region in the image.", "anchors": ["src/image_function.cpp: Shift"]}
{"id": "C100", "title": "Shift by whole numbers moves the image", "statement": "Shift by whole numbers (a, b) puts at (k, l) exactly the pixel (k - a, l - b), and zero where there is none.", "quantifier": "all images, regions and whole shifts", "why_tests_cant": "All sizes and shifts.", "anchors": ["src/image_function.cpp: Shift"]}
{"id": "C101", "title": "Functions that return a new image", "statement": "Every form of an image function that returns an image returns a new one: of the size asked for, with the colours of the function, in memory of its own, with the pixels the form with an output image would write; no image that existed is changed. A call that is refused throws and leaves no memory behind. What the form with an output image accepts is accepted.", "quantifier": "all heaps, images, regions, colours and parameters", "why_tests_cant": "All sizes, contents and memory layouts; leaks and writes next to the new image are not seen by comparing pixels.", "anchors": ["src/image_function_helper.cpp: all functions that return Image", "src/image_buffer.h: ImageTemplate::generate"]}
{"id": "C102", "title": "Functions of whole images", "statement": "The forms without coordinates act on all pixels of the images, as the form with the regions of the whole images, and refuse images of different sizes.", "quantifier": "all images and parameters", "why_tests_cant": "All sizes and layouts.", "anchors": ["src/image_function_helper.cpp", "src/parameter_validation.h: ValidateImageParameters"]}
{"id": "C103", "title": "Pooled GammaCorrection", "statement": "GammaCorrection on a thread pool leaves the same image as the single-threaded function, however the threads are scheduled. Rectangles that do not fit and negative parameters are refused in the calling thread; with different colour counts no task writes anything.", "quantifier": "all images, regions, parameters, numbers of threads and interleavings", "why_tests_cant": "The number of schedules is unbounded.", "anchors": ["src/function_pool.cpp: Function_Pool::GammaCorrection"]}
{"id": "C104", "title": "Pooled Normalize", "statement": "Normalize on a thread pool leaves the same image as the single-threaded function, however the threads are scheduled in its two pooled steps.", "quantifier": "all images, regions, roundings, numbers of threads and interleavings", "why_tests_cant": "The number of schedules is unbounded; the pooled function finds the extreme values in another way.", "anchors": ["src/function_pool.cpp: Function_Pool::Normalize"]}
{"id": "C105", "title": "Pooled Resize", "statement": "Resize on a thread pool leaves the same image as the single-threaded function, whatever the number of threads and however they are scheduled.", "quantifier": "all images, regions, sizes, numbers of threads and interleavings", "why_tests_cant": "The result must be compared for all sizes and numbers of threads; tests use sizes where the tiles happen to be even.", "anchors": ["src/function_pool.cpp: Function_Pool::Resize", "src/function_pool_task.cpp: _setup"]}
{"id": "C106", "title": "Launch sizes on a CUDA device", "statement": "For a request of w, w by h or w by h by l threads the launch chosen either is one the device accepts (block and grid sizes within the limits, product of the block sizes at most the number of threads allowed) and gives every position exactly one thread, or the request is refused with an exception; it is not refused if the grid limits suffice for every block size.", "quantifier": "all devices (limits) and all request sizes below 2^32 minus the block size", "why_tests_cant": "All sizes and all devices; a test runs on the one device present.", "anchors": ["src/cuda/cuda_helper.cu: getKernelParameters", "src/cuda/cuda_device.cu: CudaDevice"]}
{"id": "C107", "title": "Launch sizes on an OpenCL device", "statement": "For a request of w, w by h or w by h by l work items the local sizes have a product of at most the group size allowed, they divide the global sizes, and the global sizes cover the request with less than one group to spare.", "quantifier": "all group size limits and request sizes", "why_tests_cant": "All sizes and all devices.", "anchors": ["src/opencl/opencl_helper.cpp: getKernelParameters"]}
{"id": "C108", "title": "Functions of two images on a CUDA device", "statement": "AbsoluteDifference, BitwiseAnd, BitwiseOr, BitwiseXor, Maximum, Minimum and Subtract on a CUDA device write to every byte of the output rectangle the function of the input bytes and nothing else, access nothing outside the images, whatever the order in which the threads run, also in place; arguments that do not fit are refused. The contents are those the functions on the host make.", "quantifier": "all devices, images, regions, strides, colour counts and interleavings of threads", "why_tests_cant": "The number of interleavings of thousands of threads is unbounded.", "anchors": ["src/cuda/image_function_cuda.cu: AbsoluteDifference, BitwiseAnd, BitwiseOr, BitwiseXor, Maximum, Minimum, Subtract and their kernels"]}
{"id": "C109", "title": "Functions of one image on a CUDA device", "statement": "Copy, Invert, Threshold (both), LookupTable, GammaCorrection and Fill on a CUDA device write to every byte of the output rectangle the function of the input byte and nothing else, access nothing outside the images and tables, whatever the order of the threads; arguments that do not fit are refused.", "quantifier": "all devices, images, regions, parameters and interleavings of threads", "why_tests_cant": "The number of interleavings is unbounded; all strides and offsets.", "anchors": ["src/cuda/image_function_cuda.cu: Copy, Invert, Threshold, LookupTable, GammaCorrection, Fill and their kernels"]}
{"id": "C110", "title": "Colours and mirrors on a CUDA device", "statement": "ExtractChannel, Flip, ConvertToGrayScale and ConvertToRgb on a CUDA device give the channel, the mirrored image, the mean of the channels and the image in three equal channels (RGB images: a copy), whatever the order of the threads, and change nothing else; arguments that do not fit are refused.", "quantifier": "all devices, images, regions, channels, flags and interleavings of threads", "why_tests_cant": "The number of interleavings is unbounded; all strides, offsets and colour counts.", "anchors": ["src/cuda/image_function_cuda.cu: ExtractChannel, Flip, ConvertToGrayScale, ConvertToRgb and their kernels"]}
{"id": "C111", "title": "Counting functions on a CUDA device", "statement": "Histogram, IsEqual and ProjectionProfile on a CUDA device give the number of pixels of every value, whether all bytes are equal, and the sums of columns or rows modulo 2^32, whatever the order in which the threads make their atomic updates; they are those the functions on the host give, nothing outside the images and the result is accessed, and arguments that do not fit are refused.", "quantifier": "all devices, images, regions and interleavings of threads", "why_tests_cant": "The number of interleavings of the atomic updates is unbounded.", "anchors": ["src/cuda/image_function_cuda.cu: Histogram, IsEqual, ProjectionProfile and their kernels"]}
{"id": "C112", "title": "Functions of two images, Invert, IsEqual and ProjectionProfile on an OpenCL device", "statement": "AbsoluteDifference, BitwiseAnd, BitwiseOr, BitwiseXor, Maximum, Minimum, Subtract and Invert on an OpenCL device write to every byte of the output rectangle the function of the input bytes and nothing else, IsEqual and ProjectionProfile give whether all bytes are equal and the sums of columns or rows, whatever the order of the work items; nothing outside the images is accessed, and arguments that do not fit are refused.", "quantifier": "all group sizes, images, regions, strides, colour counts and interleavings", "why_tests_cant": "The number of interleavings is unbounded; all strides and offsets.", "anchors": ["src/opencl/image_function_opencl.cpp: AbsoluteDifference, BitwiseAnd, BitwiseOr, BitwiseXor, Maximum, Minimum, Subtract, Invert, IsEqual, ProjectionProfile and their kernels"]}
{"id": "C113", "title": "Other functions on an OpenCL device", "statement": "Copy, Threshold (both), LookupTable, GammaCorrection, Fill, ExtractChannel, Flip, Normalize, ConvertToGrayScale, ConvertToRgb and Histogram on an OpenCL device do for every rectangle what the functions on the host do, whatever the order of the work items, and access nothing outside the images; arguments that do not fit are refused.", "quantifier": "all group sizes, images, regions, parameters and interleavings", "why_tests_cant": "Tests use whole images; offsets matter only for parts of images, and all of them matter.", "anchors": ["src/opencl/image_function_opencl.cpp: Copy, Threshold, LookupTable, GammaCorrection, Fill, ExtractChannel, Flip, Normalize, ConvertToGrayScale, ConvertToRgb, Histogram and their kernels"]}
{"id": "C114", "title": "Images go to a device and come back", "statement": "ConvertToCuda, ConvertFromCuda, ConvertToOpenCL and ConvertFromOpenCL leave in the output image the pixels of the input image and change nothing else; an image sent to a device and fetched back has the same pixels; images of different size or colours and empty images are refused without any change.", "quantifier": "all images, row paddings on both sides and colour counts", "why_tests_cant": "All combinations of paddings and sizes; a test compares images made by the library with one alignment.", "anchors": ["src/cuda/image_function_cuda.cu: ConvertToCuda, ConvertFromCuda", "src/opencl/image_function_opencl.cpp: ConvertToOpenCL, ConvertFromOpenCL", "src/opencl/opencl_helper.cpp: readBuffer, writeBuffer"]}
{"id": "C115", "title": "SetPixel on a CUDA device", "statement": "SetPixel with a point or with lists of points on a CUDA device sets exactly these pixels, whatever the order of the threads and also if points are repeated; it does what the function on the host does; points outside of the image are refused before any pixel is changed.", "quantifier": "all devices, images, lists of points and interleavings of threads", "why_tests_cant": "The number of interleavings is unbounded, and threads write to the same byte.", "anchors": ["src/cuda/image_function_cuda.cu: SetPixel, setPixelCuda"]}
{"id": "C116", "title": "Memory pools of devices", "statement": "The blocks an allocator for CUDA or OpenCL devices gives out of its reserved memory lie inside of it, have at least the requested length and no byte in common while they are held; every byte of the pool is in exactly one chunk, free or used; a block held can always be given back; refused calls and failures of the device lose no memory and block no later call.", "quantifier": "all histories of reserve, allocate and free, with failures of the device at any call", "why_tests_cant": "All histories; failures of the device cannot be provoked in a test.", "anchors": ["src/cuda/cuda_memory.cuh: MemoryAllocator", "src/opencl/opencl_memory.h: MemoryAllocator", "src/memory/memory_allocator.h: BaseMemoryAllocator"]}
{"id": "C117", "title": "Alignment in the memory pools of devices", "statement": "A block out of the reserved memory of a device starts at an offset suitable for its elements: with OpenCL at a multiple of the alignment the device asks for, so that the device never refuses it; with CUDA at a multiple of the element size.", "quantifier": "all histories of calls, in every order of release", "why_tests_cant": "The order in which blocks were given back decides on the offsets; all orders matter.", "anchors": ["src/cuda/cuda_memory.cuh: MemoryAllocator::allocate", "src/opencl/opencl_memory.h: MemoryAllocator::allocate", "src/memory/memory_allocator.h: _split, _merge"]}
{"id": "C118", "title": "Rectangles around blobs", "statement": "The area reported for a blob is the smallest rectangle that contains all of its pixels, and the width and height are those of this rectangle, for every image, region and threshold; limits on width and height are limits on the extent of all pixels.", "quantifier": "all images, regions, thresholds and shapes of blobs", "why_tests_cant": "Shapes with holes, spirals and single-pixel bridges cannot be enumerated; the values are computed from the contour alone.", "anchors": ["src/blob_detection.cpp: _getArea, _getWidth, _getHeight, find", "src/blob_detection.h: BlobInfo::area, width, height"]}
{"id": "C119", "title": "Length of a blob", "statement": "The length reported for a blob is the greatest distance between any two of its pixels, for every image, region and threshold.", "quantifier": "all images, regions, thresholds and shapes of blobs", "why_tests_cant": "Only contour pixels are compared; that the farthest pixels are among them depends on the shape.", "anchors": ["src/blob_detection.cpp: getLengthFromCountour, _getLength", "src/blob_detection.h: BlobInfo::length"]}
{"id": "C120", "title": "Centre of a blob", "statement": "The centre reported for a blob is the mean of its pixels and lies inside of its area, for every image, region and threshold.", "quantifier": "all images, regions, thresholds and shapes of blobs", "why_tests_cant": "Overflow only shows in large blobs.", "anchors": ["src/blob_detection.cpp: _getCenter", "src/blob_detection.h: BlobInfo::center"]}
{"id": "C121", "title": "Shape values of a blob", "statement": "Circularity is at most one; circularity and elongation of a blob do not depend on where in the image it is; the elongation is one for a single pixel, positive and at most the length.", "quantifier": "all blobs and positions", "why_tests_cant": "All shapes and all positions.", "anchors": ["src/blob_detection.cpp: _getCircularity, _getElongation, getLengthFromCountour"]}
{"id": "C122", "title": "All limits of a search", "statement": "A search for blobs with limits on any of circularity, elongation, height, length, size and width gives exactly the blobs of the search without limits that are within all of them, in the same order, each with the values that were limited; limits out of order are rejected before anything else.", "quantifier": "all images, regions, thresholds and limits", "why_tests_cant": "Combinations of six filters on all shapes.", "anchors": ["src/blob_detection.cpp: find", "src/blob_detection.h: BlobParameters, Parameter::verify"]}
{"id": "C123", "title": "The best blob and sorting", "statement": "After a search with a limit on a criterion (or for the size), the best blob by this criterion is one that no other found blob exceeds, the first of them; sorting keeps the blobs and puts them in ascending order.", "quantifier": "all images, regions, thresholds, limits and criteria, and all ways the library may sort", "why_tests_cant": "Any number of blobs with equal values, any order a sort may leave.", "anchors": ["src/blob_detection.cpp: getBestBlob, sort", "src/blob_detection.h: BlobCriterion, Value"]}
{"id": "C124", "title": "PNG files", "statement": "A rectangle of an image saved as PNG file and loaded again has the same size, colours and pixels; Load of any PNG file gives the picture in the file with blue, green, red order in memory; wrong rectangles and paths are rejected and nothing else changes.", "quantifier": "all images, rectangles, paths, contents of memory and PNG files", "why_tests_cant": "All sizes, paddings, offsets and contents; tests load a few files.", "anchors": ["src/file/png_image.cpp: Png_Operation::Load, Save"]}
{"id": "C125", "title": "JPEG files", "statement": "Saving a rectangle as JPEG file compresses exactly the pixels of this rectangle with the quality set last; loading a JPEG file gives exactly the lines decompressed; qualities outside 1 to 100 are rejected and keep the old one.", "quantifier": "all images, rectangles, paths, JPEG files and histories of quality settings", "why_tests_cant": "All rectangles and sizes up to the limits of the format, any history of settings.", "anchors": ["src/file/jpeg_image.cpp: Jpeg_Operation::Load, Save, SetImageQuality, GetImageQuality"]}
{"id": "C126", "title": "The file name chooses the format", "statement": "Saving and loading under the same name use the same format, so that what was saved in a lossless format can be loaded again unchanged, whatever the name; a missing file is treated in the same way for all names.", "quantifier": "all names, builds with and without the libraries, images and rectangles", "why_tests_cant": "Names are arbitrary strings.", "anchors": ["src/file/file_image.cpp: File_Operation::Load, Save, isSameFileExtension, isJpegFile, isPngFile"]}
{"id": "C127", "title": "Same colours in all formats", "statement": "The same image saved in different formats shows the same red, green and blue in each pixel of the files.", "quantifier": "all three colour images and rectangles", "why_tests_cant": "Loading by the library itself undoes an exchange of colours made by saving; only the bytes of the file show it.", "anchors": ["src/file/bmp_image.cpp: Bitmap_Operation::Save", "src/file/png_image.cpp: Save", "src/file/jpeg_image.cpp: Save"]}
{"id": "C128", "title": "The direct and inverse transforms are Fourier transforms", "statement": "For every executor and data of its size the direct transform is the two-dimensional discrete Fourier transform of the values, and the inverse transform the one with the opposite sign (both up to rounding), also if input and output are the same object; data of another size are rejected.", "quantifier": "all sizes, values and contents of the work buffers", "why_tests_cant": "All sizes: every factorisation of width and height takes another path through the library; tests only compare the inverse of the direct transform with the input.", "anchors": ["src/fft.cpp: FFTExecutor::directTransform, inverseTransform, _makePlans", "src/thirdparty/kissfft/kiss_fft.c", "src/thirdparty/kissfft/kiss_fftnd.c"]}
{"id": "C129", "title": "The inverse transform undoes the direct one", "statement": "The inverse transform of the direct transform is the original data times the number of values (up to rounding).", "quantifier": "all sizes up to 2^30 values and all values, in place or not", "why_tests_cant": "All sizes and values.", "anchors": ["src/fft.cpp: FFTExecutor::directTransform, inverseTransform", "src/thirdparty/kissfft/kiss_fft.c", "src/thirdparty/kissfft/kiss_fftnd.c"]}
{"id": "C130", "title": "Convolution by complex multiplication", "statement": "Transforming two images, multiplying the spectra and transforming back gives the cyclic convolution of the images times the number of values (up to rounding).", "quantifier": "all sizes and values", "why_tests_cant": "All sizes and values.", "anchors": ["src/fft.cpp: FFTExecutor::complexMultiplication, directTransform, inverseTransform"]}
{"id": "C131", "title": "Device arrays are memory safe whatever fails", "statement": "Every operation on arrays in device memory (construction, copy, move, assignment, resizing, destruction, writing by kernels) either finishes or throws, whatever allocations and copies fail before or now: memory is never released twice nor used after release, and arrays not named in the operation keep their size and contents. Reading an array gives as many values as its size.", "quantifier": "all histories of operations on any number of arrays, every pattern of failing allocations and copies", "why_tests_cant": "Histories and failures of the device are unbounded.", "anchors": ["src/cuda/cuda_types.cuh: Array", "src/opencl/opencl_types.h: Array"]}
{"id": "C132", "title": "Device arrays hold what was put into them", "statement": "After any history an array holds what was assigned, copied, moved or written into it last; a copy is equal to the original, also of an empty array or of itself; size() is 0 exactly if empty(), also after a failed operation; memory is in use only for arrays which are not empty.", "quantifier": "all histories of operations on any number of arrays", "why_tests_cant": "Histories are unbounded; tests do not run on failing devices.", "anchors": ["src/cuda/cuda_types.cuh: Array", "src/opencl/opencl_types.h: Array"]}
{"id": "C133", "title": "Single device values", "statement": "Values in device memory are memory safe whatever fails; after any history a value is what was assigned, copied, moved or written last; reading a value which was moved away throws; memory is in use only for objects which have a value; a copy can be made of every object.", "quantifier": "all histories of operations on any number of values, every pattern of failing allocations and copies", "why_tests_cant": "Histories and failures of the device are unbounded.", "anchors": ["src/cuda/cuda_types.cuh: Type", "src/opencl/opencl_types.h: Type"]}
{"id": "C134", "title": "Open CUDA devices", "statement": "Whatever threads did before, every call on the CUDA device manager or a device returns or throws; afterwards exactly those devices are open which were initialised and not closed since, every ID is that of a supported device and gives that device, calls which throw open and close nothing, devices not named keep their settings, the current stream of a device is one of its streams, and the runtime of every thread uses the default device of this thread.", "quantifier": "all histories of calls by any number of threads, every pattern of failing calls of the runtime (closing a device excepted)", "why_tests_cant": "Histories are unbounded; tests run with the devices of one computer and without failures.", "anchors": ["src/cuda/cuda_device.cu: CudaDeviceManager, CudaDevice, DeviceAutoRestorer", "src/cuda/cuda_helper.cu: getCudaStream"]}
{"id": "C135", "title": "The default CUDA device of a thread", "statement": "The default device of a thread is the one it set last; other calls and other threads do not change it, so that device() gives this device as long as it is open.", "quantifier": "all histories of calls by any number of threads", "why_tests_cant": "Histories are unbounded.", "anchors": ["src/cuda/cuda_device.cu: CudaDeviceManager::setActiveDevice, device, closeDevice, closeDevices, initializeDevice", "src/cuda/cuda_device.cu: CudaDevice::setActive, ~CudaDevice"]}
{"id": "C136", "title": "Settings of CUDA devices", "statement": "The number of threads per block is always positive and at most the maximum of the device, and is the valid value set last; the number of streams is the one set last, the current stream is kept while it exists; the streams of a device belong to this device and synchronize() waits for this device, whatever the default device of the calling thread.", "quantifier": "all histories of calls by any number of threads, all 32 bit counts", "why_tests_cant": "Histories and values are unbounded; tests have one device.", "anchors": ["src/cuda/cuda_device.cu: CudaDevice::setThreadsPerBlock, threadsPerBlock, setStreamCount, setCurrentStreamId, synchronize, CudaStream::CudaStream"]}
{"id": "C137", "title": "Open OpenCL devices", "statement": "Whatever threads did before, every call on the OpenCL device manager or a device returns or throws; afterwards exactly those devices are open which were initialised and not closed since, device( id ) gives the device with this number in the list of supported devices, devices not named by a call keep their settings, and the current queue of a device is one of its at most 255 queues.", "quantifier": "all histories of calls by any number of threads, every pattern of failing calls of the OpenCL library", "why_tests_cant": "Histories are unbounded; tests run with the devices of one computer and without failures.", "anchors": ["src/opencl/opencl_device.cpp: OpenCLDeviceManager, OpenCLDevice", "src/opencl/opencl_device.h: setCurrentQueueId, queue"]}
{"id": "C138", "title": "The default OpenCL device of a thread", "statement": "The default device of a thread is the one it set last (the first at the start); other calls and other threads do not change it, device() gives this device while it is open and throws otherwise.", "quantifier": "all histories of calls by any number of threads", "why_tests_cant": "Histories are unbounded.", "anchors": ["src/opencl/opencl_device.cpp: OpenCLDeviceManager::setActiveDevice, device, closeDevice, closeDevices"]}
{"id": "C139", "title": "The list of supported OpenCL devices", "statement": "After resetSupportedDevice (and at the start) the supported devices are exactly those devices of the enabled types for which a context can be made, in the order of platforms; none twice; all devices are closed, and using the manager afterwards is safe.", "quantifier": "all lists of platforms and devices, every pattern of failing queries and contexts", "why_tests_cant": "Depends on the computer; tests see one.", "anchors": ["src/opencl/opencl_device.cpp: OpenCLDeviceManager::resetSupportedDevice"]}
{"id": "C140", "title": "Open OpenCL devices can be used", "statement": "Functions on images and memorySet work on every open device with a queue, whatever was done before (also if the device was closed and opened again, or a program could not be built before), if the OpenCL library works.", "quantifier": "all histories of calls by any number of threads", "why_tests_cant": "Histories are unbounded.", "anchors": ["src/opencl/image_function_opencl.cpp: GetProgram", "src/opencl/opencl_device.cpp: getMemsetKernel, MemoryManager::memorySet"]}
{"id": "C141", "title": "Filling OpenCL memory from several threads", "statement": "memorySet fills exactly the given number of bytes at the given place with the given value, also if other threads fill other memory at the same time.", "quantifier": "all sequences of calls, all sizes and offsets, all schedules of threads", "why_tests_cant": "Schedules and sizes: tests use one thread and small memory.", "anchors": ["src/opencl/opencl_device.cpp: MemoryManager::memorySet, getMemsetKernel", "src/opencl/opencl_device.h: OpenCLKernel::setArgument, reset"]}
{"id": "C142", "title": "OpenCL programs from files", "statement": "CreateProgramFromFile compiles the text in the file.", "quantifier": "all contents of files", "why_tests_cant": "Reading past a vector often goes unnoticed.", "anchors": ["src/opencl/opencl_helper.cpp: CreateProgramFromFile", "src/opencl/opencl_device.cpp: OpenCLProgram::OpenCLProgram"]}
{"id": "C143", "title": "Objects with complex data for Fourier transforms", "statement": "A complex data object has as many values as width times height after every operation, returned or thrown; copies are equal to and independent of their source (also to itself), moving hands over the data, other objects are never changed, operations throw only if memory or the device fails or the image or vector is unsuitable, and all memory is released when the last object is gone.", "quantifier": "all histories of operations on any number of objects, every pattern of failing allocations and device calls, host and CUDA", "why_tests_cant": "Histories are unbounded and failures are not tested.", "anchors": ["src/math/fft_base.h: BaseComplexData", "src/fft.cpp: ComplexData", "src/cuda/cuda_fft.cu: ComplexData"]}
{"id": "C144", "title": "Complex data on CUDA devices and images", "statement": "On a CUDA device, set( image ) stores every pixel as real part with imaginary part 0, set( array ) every number of the array, and get() gives the image of the normalised real parts with swapped quadrants; nothing else changes, in every order of the threads.", "quantifier": "all devices, sizes, contents and orders of the accesses of all threads", "why_tests_cant": "Orders of threads and sizes cannot be enumerated.", "anchors": ["src/cuda/cuda_fft.cu: copyFromImageCuda, copyFromFloatCuda, copyToImageCuda, ComplexData::set, get"]}
{"id": "C145", "title": "Complex multiplication on CUDA devices", "statement": "complexMultiplication stores in every value of the result the product of the values of the two factors, also if the result is one of the factors, and throws if the sizes differ; nothing else changes, in every order of the threads.", "quantifier": "all devices, executors, sizes, contents and orders of the accesses of all threads", "why_tests_cant": "Orders of threads and sizes cannot be enumerated.", "anchors": ["src/cuda/cuda_fft.cu: complexMultiplicationCuda, FFTExecutor::complexMultiplication"]}
{"id": "C146", "title": "Executors of Fourier transforms", "statement": "An executor (on the host or a CUDA device), also a copied one, transforms exactly data of its width and height in the direction asked for and throws for all other data; after a failing initialize it keeps its state or throws until it is initialised again; its plans are released once, with the executor.", "quantifier": "all histories of operations on any number of executors, every pattern of failing plans and transforms", "why_tests_cant": "Histories are unbounded and failures are not tested.", "anchors": ["src/math/fft_base.cpp: BaseFFTExecutor::initialize, _clean", "src/fft.cpp: FFTExecutor", "src/cuda/cuda_fft.cu: FFTExecutor"]}
{"id": "C147", "title": "The best vector instructions available are used", "statement": "A program using Image_Function_Simd uses the strongest kind of vector instructions (AVX-512, AVX, SSE, NEON) that was compiled in, is switched on and that the computer can execute (all parts of the instruction set which the code uses, with operating system support), and ordinary instructions if there is none. A kind is switched on unless the last call of EnableSimd or of the kind's own Enable... function switched it off; after EnableSimd(false) no vector instructions are used until something is switched on again. Every platform that compiles has at most one family of instruction sets and with a set all smaller ones of the family.", "quantifier": "every compiler and platform, every processor (all answers of CPUID), every operating system support, every sequence of Enable... calls", "why_tests_cant": "Tests run on one processor with one build; the wrong decisions happen on others.", "anchors": ["src/penguinv/cpu_identification.h: SimdInfo, PENGUINV_*_SET", "src/penguinv/cpu_id_unix.h: CpuInformation", "src/penguinv/cpu_id_windows.h: CpuInformation", "src/image_function_helper.cpp: simd::EnableSimd, EnableAvx512, EnableAvx, EnableSse, EnableNeon, actualSimdType"]}
{"id": "C148", "title": "Image_Function_Simd gives the results of Image_Function in every build", "statement": "On every platform that compiles, on every processor and after every sequence of Enable... calls each function of Image_Function_Simd (AbsoluteDifference, BitwiseAnd/Or/Xor, Maximum, Minimum, Subtract, Invert, both Threshold, Sum, ProjectionProfile, Accumulate, ConvertTo16Bit, ConvertTo8Bit, ConvertToRgb, Flip, RgbToBgr) gives the result of the function of the same name in Image_Function, writes nothing else, and refuses what that one refuses.", "quantifier": "every build, processor and sequence of switches; every image, rectangle, row size and pixel value", "why_tests_cant": "The kernel chosen depends on compiler options and processor; a test sees one combination.", "anchors": ["src/image_function_simd.cpp: simd::*, Image_Function_Simd::*", "src/image_function_helper.cpp: simd::actualSimdType", "src/penguinv/cpu_identification.h"]}
{"id": "C149", "title": "Windows show the image they are given (Windows)", "statement": "On Windows a window shows the image set last with its colours (blue, green and red in the order in which bitmap and PNG files are loaded) and in its size; an image larger than the screen is reduced, and every pixel shown is a pixel of the image which the place on the screen has points in common with; after an empty image nothing is shown. The memory of the caller and all other memory is unchanged, whatever the window showed before.", "quantifier": "all images (sizes, one, three or four colours, row sizes, contents), all screens, all former pictures of the window", "why_tests_cant": "The windows have no tests; sizes, screens and former pictures cannot be enumerated.", "anchors": ["src/ui/win/win_ui.cpp: UiWindowWin::setImage", "src/image_buffer.h: resize, setColorCount, setAlignment"]}
{"id": "C150", "title": "Windows show the image they are given (X11)", "statement": "With X11 a window made for an image shows it with its colours on every display, nothing is written outside of the buffer of the window, and images that cannot be shown are refused.", "quantifier": "all images (sizes, numbers of colours, row sizes, contents), both orders of bytes of the server", "why_tests_cant": "The windows have no tests; large images and other servers even less.", "anchors": ["src/ui/x11/x11_ui.cpp: UiWindowX11::UiWindowX11, _setupImage"]}
{"id": "C151", "title": "Drawings and images set later are shown", "statement": "After any sequence of calls of setImage, drawPoint, drawLine, drawEllipse and drawRectangle a window shows the image set last, and over it everything that was drawn, in the order of the calls.", "quantifier": "all histories of calls on windows of Windows, X11 and Qt", "why_tests_cant": "Histories are unbounded, and the windows have no tests.", "anchors": ["src/ui/ui.cpp: UiWindow::setImage", "src/ui/win/win_ui.cpp: drawPoint, drawLine, drawEllipse, drawRectangle, _paint", "src/ui/x11/x11_ui.cpp: drawPoint, _display", "src/ui/qt/qt_ui.cpp: drawPoint, drawLine, drawEllipse, drawRectangle, paintEvent"]}
{"id": "C152", "title": "Windows show the image they are given (Qt)", "statement": "With Qt a window made for an image shows it with its colours and in its size.", "quantifier": "all images (sizes, numbers of colours, row sizes, contents)", "why_tests_cant": "The windows have no tests; contents and sizes cannot be enumerated.", "anchors": ["src/ui/qt/qt_ui.cpp: UiWindowQt::UiWindowQt"]}
{"id": "C153", "title": "Changing the number of threads of a pool", "statement": "After any calls of resize and stop on a thread pool, in every order of the steps of all threads, every call returns; when it has returned the pool has exactly as many threads as asked for, all of them started, all others ended, and no released memory is accessed.", "quantifier": "all histories of resize, stop and add, all interleavings of the steps of the calling thread and all workers, wake-ups without reason included", "why_tests_cant": "Interleavings cannot be enumerated; the failing ones are rare and end in a read of released memory that is usually unnoticed.", "anchors": ["src/thread_pool.cpp: ThreadPool::ThreadPool, resize, stop, _workerThread"]}
{"id": "C154", "title": "Pictures of histograms", "statement": "DisplayHistogram shows a picture with one column per number and 100 rows in which every column is white from the bottom up to the share of its number between the smallest and the greatest in percent, and black above; it writes nothing else, and shows nothing for an empty histogram or equal numbers.", "quantifier": "all histograms (lengths and numbers of 32 bits), all contents of memory", "why_tests_cant": "Numbers of a histogram depend on the image; great ones do not occur in tests.", "anchors": ["src/tool/ui/tool_ui.h: DisplayHistogram"]}
{"id": "C155", "title": "Images in the memory of devices", "statement": "After any calls on images in main memory, pinned memory, CUDA memory and OpenCL memory (construction, copies, moves, generate, resize, clear, setColorCount, setAlignment, fill, destruction), whatever allocations and copies of memory fail: each block of memory is released exactly once and to where it came from, every non-empty image has its own block on the device of its type, no memory is lost, copies look like their source and other images do not change, fill stores the value, and an image declared for a device is on this device.", "quantifier": "all histories of calls, all sizes, all failures of allocations and copies", "why_tests_cant": "Histories and failures are unbounded, and tests on devices never fail allocations.", "anchors": ["src/image_buffer.h: ImageTemplate", "src/cuda/image_buffer_cuda.cuh: ImageTemplateCuda", "src/cuda/image_buffer_cuda_pinned.cuh: ImageTemplateCudaPinned", "src/opencl/image_buffer_opencl.h: ImageTemplateOpenCL"]}
{"id": "C156", "title": "Images after failed allocations", "statement": "When there is no memory for a constructor, resize or assignment the call throws, the image is a consistent empty image, other images do not change, no memory is lost, and the same call succeeds when there is memory again.", "quantifier": "all reachable states, all sizes, all images", "why_tests_cant": "Allocations do not fail in tests.", "anchors": ["src/image_buffer.h: resize, copy, clear"]}
{"id": "C157", "title": "Gaussian filter on CUDA devices", "statement": "Gaussian on CUDA devices gives, for a gray-scale image, an image of the same size in which every pixel is the mean of the pixels around it with the weights of the Gaussian kernel (the image being continued periodically), rounded to the nearest number; it changes no other image, gives the same result in every order of the threads, and refuses empty images, images of different sizes, coloured images, a negative sigma and kernels which do not fit.", "quantifier": "all images, all sizes, all kernel sizes and sigmas, all orders of the accesses of the threads, all exponential functions with positive values", "why_tests_cant": "Orders of threads and contents cannot be enumerated; images in tests are square or constant.", "anchors": ["src/cuda/filtering_cuda.cu: Gaussian, GetGaussianKernel", "src/cuda/cuda_fft.cu: directTransform, inverseTransform, complexMultiplication, _makePlans"]}
{"id": "C158", "title": "Providers that change their pool", "statement": "Task providers may be copied, assigned and given another thread pool at any time, and destroyed at any time together with their pools in any order: a copy has no tasks of its own, tasks already given are executed exactly once each by the pool that took them, waiting returns after that, and no pool ever uses a provider that is being destroyed, and no provider a pool that has been destroyed.", "quantifier": "all histories of construction, copies, assignments, changes of the pool, runs, waits and destructions of any number of providers and pools, with tasks executed in between in any order of the pools", "why_tests_cant": "Histories are unbounded; a provider destroyed beside a working pool fails only sometimes.", "anchors": ["src/thread_pool.cpp: AbstractTaskProvider, TaskProvider, ThreadPool::add, remove, clear, ~ThreadPool", "src/thread_pool.h: TaskProvider"]}
{"id": "C159", "title": "No data races in the thread pool", "statement": "Whatever providers and pools are used for, no two threads access the same object that is not atomic at the same time, one of them writing, without a common mutex.", "quantifier": "all histories of runs, waits, clear, remove, resize and stop, all interleavings, all tasks that throw or not", "why_tests_cant": "A data race is undefined behaviour even if every observed run is right; tests show single interleavings on one machine.", "anchors": ["src/thread_pool.cpp: _taskRun, _wait, _ready, add, resize, stop, _workerThread", "src/thread_pool.h: ThreadPool, AbstractTaskProvider"]}
{"id": "C160", "title": "The function called is the one for the image", "statement": "A function of namespace penguinV called with images of any type the library defines is executed by the implementation of this function for this type, the SIMD one for images in host memory if it is linked; without one, and with conversions enabled, the implementation of another type gets converted images; otherwise there is an exception. Which files are linked and the order in which their static objects are initialised do not matter.", "quantifier": "all subsets of the files of implementations, all orders of initialisation, all functions, all types of images, conversions enabled or not", "why_tests_cant": "The order of initialisation of static objects of different files is not fixed by the language; a test program has the one its linker chose, and one set of files.", "anchors": ["src/penguinv/penguinv.cpp: all functions", "src/image_function_helper.h: ImageTypeManager", "src/image_function.cpp, src/image_function_simd.cpp, src/cuda/image_function_cuda.cu, src/opencl/image_function_opencl.cpp: registrators"]}
{"id": "C161", "title": "Short forms of functions", "statement": "The forms of Accumulate, Histogram, ProjectionProfile, IsEqual, IsBinary, Sum, Merge, Split, Transpose, Resize, ConvertTo16Bit and ConvertTo8Bit that take whole images or return their numbers give the result of the function for all pixels of the images, whatever a vector of the caller held before; they refuse empty images, images of an unknown number of colours and, where sizes must agree, images of different sizes, without a change of images or vectors.", "quantifier": "all images of all sizes, row sizes, colours and contents, all rectangles, all contents of the caller's vectors", "why_tests_cant": "Every form has its own checks and its own choice of the sizes it passes on; a test compares single images.", "anchors": ["src/image_function_helper.cpp: Accumulate, Histogram, ProjectionProfile, IsEqual, Merge, Split, Transpose, Resize, ConvertTo16Bit, ConvertTo8Bit", "src/image_function.cpp: IsBinary, Sum"]}
{"id": "C162", "title": "A detector used again and again", "statement": "What a detector of blobs or edges holds after a search depends on that search only: earlier searches, rejected ones, questions and sorting make no difference. A rejected search leaves what the last one found. What a blob says about itself - area, centre, circularity, elongation, height, length, width, size - follows from its pixels, in whatever order, however often and through whichever reference it is asked.", "quantifier": "all histories of searches (accepted or rejected), questions, best-blob queries and sorts on one detector", "why_tests_cant": "Values are computed on demand and remembered: any order of questions between any searches.", "anchors": ["src/blob_detection.h: BlobInfo, BlobDetection", "src/blob_detection.cpp: find, _getArea, _getCenter, _getCircularity, _getElongation, _getHeight, _getLength, _getWidth", "src/edge_detection.h: EdgeDetectionBase::find"]}
{"id": "C163", "title": "Points and angles", "statement": "Points compare and compute as points do: a point equals itself, == does not depend on the side, != is the opposite of ==, points equal to one point are equal to each other; after any sequence of additions and subtractions a point is the sum of what was added and subtracted, in any order, and an addition is undone by the subtraction; an operator with assignment leaves what the plain one returns. Degrees turned to radians and back are the same angle, in both directions, and larger angles stay larger.", "quantifier": "all points with integer or floating-point coordinates, all sequences of operations, all angles, every rounding of the operations", "why_tests_cant": "Coordinates and sequences are unbounded and floating-point results depend on every bit; a test compares single points.", "anchors": ["src/math/math_base.h: PointBase2D, PointBase3D", "src/math/math_base.cpp: isEqual, toRadians, toDegrees"]}
{"id": "C164", "title": "Short forms of the filters", "statement": "The forms of Median, Prewitt and Sobel that take a region or an image and return a new image, or take two images, give the result of the long form for all pixels, in a new image of the size of the region, with the memory of all other images unchanged; they refuse what the long form refuses - colour images, kernels that are even, smaller than 3 or not smaller than the region, regions smaller than 3 - without a change.", "quantifier": "all images of all sizes, row sizes and contents, all regions, all kernel sizes, all states of the memory", "why_tests_cant": "Each form has its own allocation and checks; a test compares single images.", "anchors": ["src/filtering.cpp: Median, Prewitt, Sobel", "src/filtering.h"]}
{"id": "C165", "title": "Limits that are set and reset", "statement": "After any history of set, setMinimum, setMaximum and reset on a limit of a search for blobs, a minimum (maximum) is in force exactly when one was given after the last reset, and it is the one given last; verify throws exactly when both are in force and the minimum is larger; a search uses exactly the limits in force, and after a reset of all parameters it finds all blobs.", "quantifier": "all histories of calls on the parameters, all images and thresholds", "why_tests_cant": "Histories are unbounded: any order of setting, overwriting and resetting.", "anchors": ["src/blob_detection.h: Parameter, BlobParameters", "src/blob_detection.cpp: BlobDetection::find"]}
{"id": "C166", "title": "Solid blobs", "statement": "A blob found in an image answers that it is solid exactly when it has no holes: when from every position outside the blob there is a way around it to the outside of the image, in steps to any of the eight neighbours.", "quantifier": "all images, regions and thresholds, every blob found, of any shape", "why_tests_cant": "Shapes are unbounded; whether holes can be told from the number of edge points is a statement of topology, not of samples.", "anchors": ["src/blob_detection.h: BlobInfo::isSolid", "src/blob_detection.cpp: BlobDetection::find"]}
{"id": "C167", "title": "Rotation on a CUDA device", "statement": "Rotate on a CUDA device gives every pixel of the output the value interpolated between the four pixels of the input around the point which the rotation about the given centres puts there, or zero when that point is not inside the image; the point used is at most 7 (3C + w + h) / 2^23 away from the true one, for centres at most C from the origin; nothing else is written, no thread reads anything but the input image, and images that are empty, coloured or of different sizes are refused; in every order of the threads.", "quantifier": "all images of all sizes and contents, all centres and angles (any numbers at most one for cosine and sine), every rounding to nearest with 24 bits, all devices, all schedules of the threads", "why_tests_cant": "Angles, centres and rounding errors are continuous and the accesses of the threads may be interleaved in any order.", "anchors": ["src/cuda/image_function_cuda.cu: rotateCuda, Rotate", "src/cuda/cuda_helper.cuh: launchKernel2D"]}
{"id": "C168", "title": "Setting pixels on an OpenCL device", "statement": "SetPixel on an OpenCL device sets exactly the pixel at (x, y), or with lists of coordinates exactly the pixels of the lists, to the value and changes no other memory; images that are empty or have a wrong number of colours and points outside the image are refused.", "quantifier": "all gray-scale images of all sizes and row sizes, all points and lists of points, all values, all devices and all schedules of threads", "why_tests_cant": "The place written to is computed from the size of a row and the point, in two places (host and kernel); only a statement for all points tells whether they agree.", "anchors": ["src/opencl/image_function_opencl.cpp: setPixelOpenCL, SetPixel", "src/opencl/opencl_device.cpp: OpenCLKernel::_setArgument", "src/opencl/opencl_helper.cpp: launchKernel1D"]}
{"id": "C169", "title": "Short forms of functions on devices", "statement": "On CUDA and OpenCL devices the forms of the functions that take a region or an image and return a new image, or take whole images, give the result of the long form: a new image of the size of the region, of the right colours, with the right pixels, in every order of the threads, and no image that existed is changed; `F( in )` is the form for the region of the whole image; regions that do not fit, empty images, images of different sizes and refused parameters cause an exception and leave nothing behind.", "quantifier": "all images of all sizes, row sizes, colours and contents, all regions, all states of the memory, all devices and all schedules of threads", "why_tests_cant": "Each form makes its own image and passes its own sizes on before a kernel starts; a test runs single images of one size on one device.", "anchors": ["src/image_function_helper.cpp", "src/cuda/image_function_cuda.cu: short forms", "src/opencl/image_function_opencl.cpp: short forms"]}
{"id": "C170", "title": "Short forms of pooled functions", "statement": "In a pool of any number of threads the forms of the functions that take a region or an image and return a new image, or take whole images, give the result of the form without a pool: when the tasks are done, in whatever order they worked, there is a new image of the size of the region, of the right colours, with the right pixels, and no image that existed is changed; regions that do not fit, empty images, images of different sizes, wrong colours and wrong parameters are refused and leave nothing behind.", "quantifier": "all images of all sizes, row sizes, colours and contents, all regions, all states of the memory, all numbers of threads and all interleavings of the tasks", "why_tests_cant": "The image is made by one thread and filled by others in any order; a test sees one schedule of one size.", "anchors": ["src/function_pool.cpp: short forms", "src/image_function_helper.cpp"]}
{"id": "C171", "title": "Short forms of the SIMD functions", "statement": "The forms of the SIMD functions that take a region or an image and return a new image, or take whole images, give on every processor and in every build the result of the scalar form: a new image of the size of the region with the right pixels, or the right pixels in the given image, nothing else changed; what the scalar form refuses is refused and leaves nothing behind; sums, profiles and accumulations of whole images are those of the pixels.", "quantifier": "all images of all sizes, row sizes, colours and contents, all regions, all states of the memory, all builds and processors", "why_tests_cant": "The pixels are handled in groups whose size depends on the processor and the rest is handled differently; a test runs on one processor with single sizes.", "anchors": ["src/image_function_simd.cpp: Image_Function_Simd short forms", "src/image_function_helper.cpp"]}
{"id": "C172", "title": "The functions of penguinV", "statement": "Whatever files a program is linked with, in whatever order they register their functions, with or without SIMD instructions: a function of the namespace penguinV called with images of the host gives the right result in all its forms (two rectangles, a region, a whole image), changes nothing else, refuses wrong images and parameters without leaving anything behind, and throws when there is no function for these images. Copy( in, out ) makes out an image of its own with the pixels of in, whatever out was before.", "quantifier": "all sets and orders of linked files, all builds and processors, all images of all sizes, row sizes, colours and contents, all rectangles, all states of the memory", "why_tests_cant": "Which function runs is decided by the files linked, the order of registration and the processor; a test is one program on one machine.", "anchors": ["src/penguinv/penguinv.cpp", "src/penguinv.h", "src/image_function_helper.cpp", "src/image_function_simd.cpp", "src/image_function.cpp"]}
{"id": "C173", "title": "Pooled functions that return values", "statement": "In a pool of any number of threads Sum, Histogram, IsEqual and ProjectionProfile, in all forms (a rectangle, a whole image, a new vector or the vector of the caller), return the value of the definition (sum modulo 2^32, counts of the values, equality of all pixels, sums of the columns or rows) in every order of the tasks and change nothing; Split fills its three images, and Normalize without an output returns a new image with the stretched values; rectangles that do not fit, empty images, images of different sizes and wrong colours are refused.", "quantifier": "all images of all sizes, row sizes and contents, all rectangles, all numbers of threads, all interleavings of the tasks, all former contents of vectors and memory", "why_tests_cant": "Each task returns a part and the parts are put together by another thread; a test sees one number of threads and one schedule.", "anchors": ["src/function_pool.cpp: Sum, Histogram, IsEqual, ProjectionProfile, Split, Normalize", "src/image_function_helper.cpp"]}
{"id": "C174", "title": "Haar transform with rounding", "statement": "With every operation rounded, HaarDirectTransform followed by HaarInverseTransform restores every value up to a few rounding errors of the number type (float or double), relative to the greatest of the four values of its 2 x 2 block, and the direct transform gives half the sums and differences of every block with such errors; values of other blocks have no influence.", "quantifier": "all vectors of all even widths and heights and all values (exponents are not bounded), all roundings with the relative error of the type, in place or not", "why_tests_cant": "Rounding errors depend on every bit of the values; a test tries single vectors with a tolerance chosen for them.", "anchors": ["src/math/haar_transform.cpp: HaarDirectTransform, HaarInverseTransform"]}
{"id": "C175", "title": "Handles of the OpenCL driver", "statement": "Contexts, queues, programs, kernels, events and memory allocators taken by devices, programs, kernels and launches are each released exactly once: never twice, never after the release, those of an existing object stay held, and when all objects are destroyed nothing is held any more, whatever calls of the driver failed in between.", "quantifier": "all histories of making, closing, resizing, synchronizing and launching with any number of devices, queues, programs (moved or not) and kernels, all patterns of failing driver calls", "why_tests_cant": "A leak or a double release depends on which call of the driver fails at which moment of the history; a test cannot make each call fail.", "anchors": ["src/opencl/opencl_device.h: OpenCLContext, OpenCLQueue, OpenCLProgram, OpenCLKernel, OpenCLDevice", "src/opencl/opencl_device.cpp: OpenCLProgram, OpenCLDevice::setQueueCount, OpenCLDeviceManager::initializeDevices", "src/opencl/opencl_helper.cpp: launchKernel1D, launchKernel2D, launchKernel3D, runKernel"]}
{"id": "C176", "title": "OpenCL is supported exactly when there is a device", "statement": "After any history of enableDeviceSupport, getDeviceSupportStatus tells the types of the last call (graphics cards only without one), isOpenCLSupported is true exactly when a platform that answers has a device of an enabled type, and the list of supported devices made then has exactly the devices of enabled types that can be used; it is empty exactly when OpenCL is not supported.", "quantifier": "all histories of enableDeviceSupport, all machines (platforms, devices, which can be used), all failures of the driver's queries", "why_tests_cant": "Depends on the machine and on calls of the driver that fail; a test sees one machine.", "anchors": ["src/opencl/opencl_helper.cpp: isOpenCLSupported, enableDeviceSupport, getDeviceSupportStatus", "src/opencl/opencl_device.cpp: resetSupportedDevice"]}
{"id": "C177", "title": "Lines are right up to rounding", "statement": "With floating point coordinates up to B in size, a line through two points starts at the first, has a direction of length one and contains the second point up to a fixed number of rounding errors of B; the distance of a point to a line, its projection and its mirror image differ from the exact ones by no more than a fixed number of rounding errors of B; the intersection point of two lines is on both up to rounding, and there is none only for directions with a small angle between them; the best fitting line of points on a line contains these points up to rounding.", "quantifier": "all points and lines with coordinates of size up to B, all B, every rounding with small relative error (single and double precision)", "why_tests_cant": "Rounding errors depend on all digits of the coordinates; tests compare a few points with a tolerance.", "anchors": ["src/math/math_base.h: LineBase2D::LineBase2D, LineBase2D::distance, LineBase2D::projection, LineBase2D::opposite, LineBase2D::intersection, LineBase2D::isParallel, LineBase2D::bestFittingLine"]}
{"id": "C178", "title": "Fourier transforms are right up to rounding", "statement": "In single precision each value of a direct or inverse transform differs from that of exact arithmetic by no more than a small multiple of the sum of the absolute values of the input, where the multiple depends only on the prime factors of width and height and the precision (1/9700 for 512 x 512 values); the inverse of the direct transform is the input times the number of values up to such an error, and the convolution by multiplication of spectra is the cyclic convolution up to such an error.", "quantifier": "all sizes up to 2^30 values, all values without overflow or underflow, every rounding with a bounded relative error", "why_tests_cant": "Rounding errors depend on all values and on the order of the operations for the factors of each size; tests compare a few sizes with a tolerance.", "anchors": ["src/fft.cpp: FFTExecutor::directTransform, inverseTransform, complexMultiplication", "src/thirdparty/kissfft/kiss_fft.c: kf_bfly2, kf_bfly3, kf_bfly4, kf_bfly5, kf_bfly_generic, kf_work, kiss_fft_alloc", "src/thirdparty/kissfft/kiss_fftnd.c"]}
{"id": "C179", "title": "Edge detection with single precision finds the same edges", "statement": "For regions near to the start of the image the detector with points of type float finds as many positive and negative edges as the detector with points of type double, one by one on the same lines and at the same places along them up to the precision of float (2^-22 times the farthest coordinate of the region); a step is found exactly halfway between its two pixels. Both reject the same calls.", "quantifier": "all gray-scale images, regions, directions, gradients, selections, groups, skips and contrast checks; every rounding with small relative error that leaves halves of integers alone", "why_tests_cant": "Whether two neighbouring edges are one depends on rounded differences of positions, which are different numbers in float and double; tests look at a few images with a tolerance.", "anchors": ["src/edge_detection.cpp: EdgeDetectionHelper::find, findEdgePoints, findPoint, removeSimilarPoints", "src/edge_detection.h: EdgeDetectionBase"]}
{"id": "C180", "title": "Sequences of BinaryDilate and BinaryErode", "statement": "Dilating and then eroding an image of the values 0 and 255 (closing) keeps all white pixels, eroding and then dilating (opening) keeps all black ones, both change nothing outside of the rectangle and nothing at all when done again; two dilations or two erosions are one by the sums of the numbers; eroding is inverting, dilating and inverting. The forms for whole images do so with all pixels and refuse empty images.", "quantifier": "all gray-scale images of 0 and 255 of all sizes, row sizes and contents, all rectangles, all numbers of columns and rows", "why_tests_cant": "Laws between several calls on the same image must hold for each image, also near the borders; tests call each function once on rectangles of one colour.", "anchors": ["src/image_function.cpp: BinaryDilate, BinaryErode, Dilate, Invert"]}
{"id": "C181", "title": "Different functions agree about the same image", "statement": "Histogram and Sum of an image mirrored by Flip or turned by Transpose are those of the image, and Transpose exchanges the two projection profiles; Invert turns the histogram around; Threshold makes as many white and black pixels as the histogram has for the values above and below; IsEqual is true exactly when the sum of the absolute difference is 0; Subtract( Maximum, Minimum ) is AbsoluteDifference; Invert exchanges Maximum and Minimum as well as BitwiseAnd and BitwiseOr; BitwiseXor with the same image twice restores the first image.", "quantifier": "all images of all sizes, row sizes and contents, all rectangles, all thresholds, all former contents of the vectors", "why_tests_cant": "Laws between several functions have to hold for all contents; each test knows the expected result of one function for images of one value.", "anchors": ["src/image_function.cpp: Histogram, Sum, Flip, Transpose, ProjectionProfile, Invert, Threshold, IsEqual, AbsoluteDifference, Maximum, Minimum, Subtract, BitwiseAnd, BitwiseOr, BitwiseXor"]}
{"id": "C182", "title": "Blob detection agrees with the functions which move, threshold, count and dilate pixels", "statement": "Flip and Transpose move the blobs: there are as many as before and each of them consists of exactly the moved points of one of the former blobs; the blobs of the image made by Threshold are the blobs of the image for that threshold; the areas of all blobs add up to the number of pixels which Histogram counts from the threshold on; after BinaryDilate each former blob lies within one blob and each blob contains a former one, so there are not more of them.", "quantifier": "all gray-scale images of all sizes, row sizes, contents and numbers of blobs, all rectangles, all thresholds, all numbers of columns and rows", "why_tests_cant": "Which pixels form a blob depends on paths through the whole image; laws between detection and other functions have to hold for blobs of each shape, tests detect a few rectangles.", "anchors": ["src/blob_detection.cpp: BlobDetection::find", "src/image_function.cpp: Flip, Transpose, Threshold, Histogram, BinaryDilate"]}
{"id": "C183", "title": "Calls in a row can be replaced by other calls", "statement": "Two lookup tables in a row, the second one in place, are the composed table; Invert and Threshold have exactly the effect of their lookup tables; Flip after Flip is Flip with the flags that differ; Transpose and Flip can be exchanged together with the flags, and two quarter turns made by Transpose and Flip are a half turn; Resize by whole factors repeats each pixel and Resize back restores the image; accumulating several images adds the sum of their values to each entry, in whatever order.", "quantifier": "all images of all sizes, row sizes and contents, all rectangles, all tables, flags and factors, all lists of images and starting values", "why_tests_cant": "Users rearrange and merge calls; that the results stay the same is a statement about all contents, which tests with images of one value cannot see.", "anchors": ["src/image_function.cpp: LookupTable, Invert, Threshold, Flip, Transpose, Resize, Accumulate"]}
{"id": "C184", "title": "Filters agree with functions which change values or move pixels", "statement": "Median of an image changed by an increasing or a decreasing lookup table (for example Invert or Threshold) is the Median changed by the table; Median of a mirrored or transposed image is the mirrored or transposed Median; Prewitt and Sobel give the same for an image and its negative, black for an image of one value, and the mirrored and transposed gradients for the mirrored and transposed image.", "quantifier": "all gray-scale images of all sizes, row sizes and contents, all rectangles (Prewitt and Sobel: whole images), all kernel sizes, all monotone tables, all flags", "why_tests_cant": "Symmetries have to hold for each image and also next to the borders, where the filters treat the sides separately; tests filter images of one value.", "anchors": ["src/filtering.cpp: Median, Prewitt, Sobel", "src/image_function.cpp: LookupTable, Invert, Flip, Transpose"]}
{"id": "C185", "title": "Normalize changes nothing when called again and follows moved pixels", "statement": "If a call of Normalize is defined, a second call on its result is defined as well and its output is equal to the first output; the mirrored and the transposed output are the outputs for the mirrored and the transposed image.", "quantifier": "all images of all sizes, row sizes and contents (Flip and Transpose: gray-scale), all rectangles, all flags, every rounding of the floating-point operations, every conversion of values out of range", "why_tests_cant": "Whether a rounded linear interpolation reaches exactly 0 and 255 depends on all pairs of extreme values and on the rounding; tests normalize a few images once.", "anchors": ["src/image_function.cpp: Normalize, Flip, Transpose, IsEqual"]}
{"id": "C186", "title": "Saved bitmap files follow the format", "statement": "A bitmap file saved from an image or a rectangle has the bytes which the format asks for: the signature, its own length, the position of the pixels, the sizes of the image, one plane, 8 bits per colour value, no compression, for gray-scale images the 256 gray colours, and then the pixels row by row from below, each row filled with zeros up to a multiple of four bytes. Nothing else on the disk and no image is changed. If the file cannot be created or has no room, the call throws.", "quantifier": "all images of all sizes, colour counts, row sizes and contents, all rectangles, all sizes of the disk", "why_tests_cant": "Other programs read the files; tests of the library read them back with the same code, so that a mistake made on both sides stays unseen, and know a few sizes only.", "anchors": ["src/file/bmp_image.cpp: Save, generateGrayScalePallete, BitmapFileHeader::get, BitmapInfoHeader::get"]}
{"id": "C187", "title": "Functions of colours and channels agree", "statement": "Images with the colours in the two orders have the same gray image, and a channel of one is the opposite channel of the other; Merge with the channels in the opposite order is Merge and then RgbToBgr; changing values by a lookup table and extracting a channel can be exchanged; after ReplaceChannel the replaced channel is the given one and the two others are as before.", "quantifier": "all images of all sizes, row sizes and contents, all rectangles, all channels and tables", "why_tests_cant": "Mixed-up channels show only for images whose channels differ, in all pixels and paddings; tests use images of one value, for which most mistakes give the same result.", "anchors": ["src/image_function.cpp: RgbToBgr, ConvertToGrayScale, ExtractChannel, ReplaceChannel, Merge, LookupTable"]}
{"id": "C188", "title": "Edges do not depend on the brightness of the image", "statement": "EdgeDetection finds the same points in an image and in one all of whose pixels are brighter by the same value (none leaving the range of a byte), whatever the direction, the kind of edge, the contrast and the grouping of lines.", "quantifier": "all images and rectangles, all brightness differences, all parameters, all roundings of the numbers", "why_tests_cant": "The tests look at a few images with two values. Whether only differences of values matter concerns all images; the rounded means of the contrast check break it for few values only.", "anchors": ["src/edge_detection.cpp: findPoint, getEdgePoints, EdgeDetectionBase::find", "src/edge_detection.h: EdgeParameter"]}
{"id": "C189", "title": "Numbers of parts and of changed images add up", "statement": "If a rectangle is cut into a left and a right or an upper and a lower part, each entry of its Histogram is the sum of the entries of the parts and its Sum the sum of their sums; the ProjectionProfile along the cut is the one of the first part followed by the one of the second, the other one is the sum of theirs entry by entry. The Histogram of an image changed by LookupTable has for each value the number of pixels of all values which the table maps to it.", "quantifier": "all images, all rectangles, all places of the cut, all tables, whatever the vectors of the caller held", "why_tests_cant": "Tests compare with one image of known contents. A pixel counted twice or not at all at a border of a rectangle shows only for some positions, sizes and paddings.", "anchors": ["src/image_function.cpp: Histogram, Sum, ProjectionProfile, LookupTable"]}
{"id": "C190", "title": "A rectangle done in two parts", "statement": "If a rectangle is cut into a left and a right or an upper and a lower part, calling Invert, LookupTable, Threshold, BitwiseAnd, BitwiseOr, BitwiseXor, Maximum, Minimum, AbsoluteDifference, Fill or Copy for the one part and then for the other succeeds and leaves exactly the memory which one call for the whole rectangle leaves, also in place.", "quantifier": "all images of all sizes, paddings and numbers of colours, all rectangles, all places of the cut, all tables, thresholds and values, separate images and results in place", "why_tests_cant": "Tests run on whole images or on one rectangle. The functions treat full-width rectangles of images without padding as one long row; a part takes another path than the whole, and both must agree for every geometry.", "anchors": ["src/image_function.cpp: Invert, LookupTable, Threshold, BitwiseAnd, BitwiseOr, BitwiseXor, Maximum, Minimum, AbsoluteDifference, Fill, Copy"]}
{"id": "C191", "title": "Subtract done in two parts", "statement": "If a rectangle is cut into a left and a right or an upper and a lower part, calling Subtract for the one part and then for the other leaves exactly the memory which one call for the whole rectangle leaves.", "quantifier": "all images of all sizes, paddings and numbers of colours, all rectangles, all places of the cut, separate images and results in place", "why_tests_cant": "The whole and its parts take different paths through the function depending on the paddings of three images; tests use images of one kind.", "anchors": ["src/image_function.cpp: Subtract"]}
