# Formal model of penguinV in Lean 4

The model is in `lean/Verif/`.  Properties are listed in `properties.jsonl`, the
state of each proof in `MANIFEST.json`, experiments with deliberately wrong
programs in `seeded/LOG.jsonl`.

## Trusted base

* Lean 4.33.0's kernel.  Theorems depend only on the standard axioms `propext`,
  `Classical.choice` and `Quot.sound`.  There are no own axioms, no `sorry`, no
  `native_decide`/`bv_decide`.
* The reading of the C++ text: every definition of the model cites the file and
  lines it follows.  Nothing was extracted mechanically, the model is a manual
  transcription.
* The specification side (`Verif/Spec`-like sections and the statements in the
  `Props*` files) has to be read to agree with the English text.

## Modelling decisions

* **Outcomes.** A call ends in `ok` (a value and the new memory), `throw` (with the
  memory at the time of the exception, so "a refused call changes nothing" can be
  stated) or `ub` (an access outside a block, a null dereference, use of
  a destroyed object, or a loop that leaves its block).  Only dereferencing counts
  as undefined behaviour; forming a pointer outside a block does not.
* **Memory.** A memory is a map block -> index -> cell, with a size for each block.
  Images are handles with a block, so two images may share a block and all
  aliasing questions can be expressed.
* **Integers.** `uint32_t` values are naturals below 2^32; each arithmetic
  operation of the C++ text that is done in 32 bits is reduced modulo 2^32
  explicitly.  `uint8_t` is a natural below 256 or Lean's `UInt8`.
* **Loops.** C++ loops over pointers are transcribed as loops with the same
  exit test (`!=`), which are not assumed to end: leaving the memory is `ub`.
* **Floating point.** Either rational numbers with a rounding function after every
  operation, of which only monotony, a relative error bound and exactness on integers
  below 2^53 are assumed (`Rounding`; round-to-nearest-even with 53 bits is proved to
  be one, `Rounding.double`), or exact rational or real arithmetic.  Which one it is
  stands in the header of the file and in the manifest.  There are no infinities,
  NaNs, subnormal numbers or fused operations.
* **Threads.** The thread pool is a labelled transition system whose steps are the
  critical sections and atomic accesses of the C++ text.  Memory is sequentially
  consistent.
* **Properties the code violates.**  The negation is proved with a concrete witness, and
  a theorem with suffix `_partial` proves the claim under the exact guard under
  which it is true.

## Plan per property

| id | model | proof |
|----|-------|-------|
| C01, C02, C03 | `parameter_validation.h` with 32-bit wrap-around | decision logic, `omega` |
| C04 - C08 | heap of blocks + image objects, container calls as state machine | invariant by induction over histories; C06 and C07 are violated by the code: negation plus partial theorem |
| C09 - C17, C21 | row x column pointer loops over the memory | loop lemma gives the final memory completely; C12 is violated for padded second inputs |
| C18 - C20, C22, C23 | pointer loops with different strides | same loop lemma with separate index maps |
| C24 - C29 | reading loops with accumulator | fold lemma, counting specification; C24 is violated for colour images |
| C30 | single access | direct |
| C31 | index table loop | same; 32-bit overflow of x*widthIn needs a guard |
| C32 | distance passes of `Dilate` | induction over passes; specification with windows |
| C33 | both conversions | violated when startX>0 and colours>1 |
| C34, C35 | exact rational instead of double | arithmetic |
| C36 | same loops | negation with witness |
| C37 - C41 | allocator free lists and allocated map as state machine | invariant by induction over histories; C39, C40, C41 violated: negation |
| C42 - C47 | transition system of providers, workers and the queue | inductive invariant over all schedules; C45, C46, C47 violated: negation with a concrete schedule |
| C48 - C50 | tile computation; tasks as memory steps | partition proof, commutation of disjoint writes |
| C51, C52 | vector registers as lists of lanes | block + tail loop equals the scalar loop; C52 violated for SSE |
| C53, C54 | map with border, BFS | invariant of the search, connectivity specification |
| C55 - C57 | window loops | index safety and value theorems; C57 violated for large group factors |
| C58 - C60 | bytes of the file as list | round trip; C58 violated for tiny images, C59 for padded rows |
| C61 - C65 (C63 below) | exact field arithmetic | algebra; C65 violated for odd sizes |
| C66, C87, C88 | table of registered functions; conversion of arguments | decision logic over histories of registrations; dangling references |
| C67 - C71 | as C18, C42, C04, C53 | same methods |
| C72, C73 | as C53, C33 | negation with witness, partial theorem |
| C74, C75 | look-up table of gamma correction; Otsu's threshold | monotony under rounding; maximality of the between-class variance, exactly in exact arithmetic and up to 2^-31 with the rounding of `double` |
| C76, C77 | vector registers | as C51; per-lane permutation stated exactly |
| C78, C79 | filter table, Gaussian kernel (exact and rounded to `float`) | induction over the table, sums over the kernel; bounds on rounded running sums |
| C63 | Hough transform, sine, cosine and sort as parameters, any rounding of the number type and of `double` | the passes only permute and classify the points; with rounding only that it is monotone, idempotent and keeps zero is used (proved for 53 and 24 bits) |
| C80 | Hough transform in exact arithmetic; with the rounding of `double` | counting of votes, soundness and completeness of the result; violated with rounding: witness evaluated in the kernel |
| C81 | light correction | list of wrong pixels |
| C82, C83 | FFT executor without the transform | loop lemma, complex algebra |
| C84 - C86 | lines and points in the plane | real algebra, `Complex.arg` as `atan2` |
| C89, C90 | loading of arbitrary bytes as bitmap | decision logic over the header, loop lemma for the pixels |
| C91 - C94 | edge detection | the exact set of edges (`find_ok`) evaluated for steps, transposed images and opposite scans |
| C95 - C97 | `Rotate`, cosine and sine as parameters | rounding error analysis of the running position; interpolation bounds |
| C98 - C100 | `Shift` | exact integer part and weights, loop lemma; violated: negation with witness |
| C101, C102 | forms that return an image, forms of whole images; a heap with `new[]` and `delete[]` | reduction to the form with regions; violated: negation for all colour images, witness |
| C103 - C105 | pooled GammaCorrection, Normalize, Resize | as C49, C50; refinement of histogram extrema to image extrema; exact result by parts, equality where the threads divide the heights; violated: negation with witness |
| C106, C107 | launch sizes of CUDA and OpenCL | the side loop is a search for the first power of two; 32- and 64-bit arithmetic; violated: negation with witness |
| C108 - C110 | CUDA functions: the host part returns a launch, the kernel is a task for every thread | every byte of the output is owned by one thread; non-interference of tasks (`Interleave`); violated: negation with witness |
| C111 | CUDA functions with atomic updates | the updates of one kind commute; every interleaving is a permutation of them |
| C112, C113 | OpenCL functions | as C108 - C111; where the offset is wrong: the exact rectangle that is used; violated: negation with witness, or for all calls |
| C114 | transfers between host and device, into an image or a new one | a flat copy and a pitched copy are the same walk over rows where no padding is lost; round trip by composition; violated: negation with witness |
| C115 | CUDA `SetPixel` | invariant over interleavings of threads which all write the same value |
| C116, C117 | the pools of CUDA and OpenCL devices, on the model of C37 - C41; failures of the device are arguments of the calls | invariants over histories; C117: alignment of the chunks from a level on; violated for CUDA: negation with witness |
| C118, C119 | area, extents and length of a blob, computed from its contour | digital topology (`BlobOuter`): a pixel with a free ray in one of the four directions is in the contour, by counting parities of crossings; the extreme pixels and the farthest ones have such a ray; overflow of the length: exact condition and witness |
| C120, C121 | centre, circularity, elongation over rationals, any rounding after each operation; square root and angles are parameters | exact sum modulo 2^32; invariance under moves; violated: negation with witness |
| C122, C123 | all six filters with values computed on demand, `getBestBlob`, `sort`; floating-point numbers are an ordered type, circularity and elongation unknown functions of the blob | refinement to one filter on the pixels; the first greatest by induction; `std::sort` is any permutation in order |
| C124, C125 | `Png_Operation` and `Jpeg_Operation` Load and Save on memory and files; libpng and libjpeg are arbitrary functions between pictures and bytes, libpng lossless | rows by induction; round trip (PNG), lines given and taken (JPEG); exact results for four colours and other corners; history of qualities |
| C126, C127 | `File_Operation` Load and Save; the name as a list of characters | suffix of the name decides; C58 and C124 combined; red, green and blue of the same pixel in the bytes of both files |
| C128, C129, C130 | kissfft (factorisation, the five butterflies, the recursion, the two stages) and `FFTExecutor` over exact complex numbers; reads and writes outside of buffers undefined | loop rule for disjoint classes of indices, one lemma per butterfly, induction over the factors, factorisation ends and has product n; orthogonality of the roots, shift of sums for the convolution |
| C131, C132, C133 | `Array` and `Type` of CUDA and OpenCL over a memory of blocks; every allocation and copy may fail; double release, use of missing blocks, overlapping copies and access outside of blocks undefined | invariant (own block of the right length, no sharing, nothing at new addresses) over all histories with all failures; refinement to lists when nothing fails; witnesses for what copies and failures break |
| C134, C135, C136 | the CUDA device manager: open devices, default device of every thread and current device of the runtime in every thread; calls of the runtime may fail | invariant over histories of calls of any number of threads, every call classified as one of nine changes of the state; witnesses for closing, huge counts and devices which are not the default |
| C137, C138, C139, C140, C142 | the OpenCL device manager: supported and open devices, default devices of threads, contexts as numbers, programs kept per device; the scan of platforms; the text of a program in a file | invariant over histories of calls of any number of threads as for CUDA; induction over platforms for the exact list; witnesses |
| C141 | `memorySet` as sequence of actions on the shared kernel object, interleaved with those of other threads | induction over calls which do not overlap; schedules as witnesses for those which do |
| C142 | the file as list of bytes, the vector of the text and the reading up to the first zero byte | cases over the contents; witness for files without zero byte |
| C143 | objects and their arrays in a heap, every operation of `BaseComplexData`/`ComplexData` with allocations and device calls which may fail | invariant over all histories (arrays are owned once and as long as width times height), effect of each operation on all objects |
| C144 | kernels as programs of each thread on a memory of numbers, launches with any grid which covers the data | each position writes its own cells, so every order of accesses gives the same result; witnesses where it does not |
| C145 | the same for `complexMultiplication` with an executor of any size | the same; an access outside of the arrays for every larger executor |
| C146 | executors and plans as objects, plans may fail | invariant over all histories (each plan belongs to one executor and has its size), result of each operation |
| C147 | preprocessor symbols, CPUID answers and the switches as data; a computer also has operating system support | all computers; the last call decides (list induction); bits of the registers; witnesses of computers where the questions are too weak |
| C148 | the dispatch of each function with the symbols of the build as parameter | equal to the dispatch of C51/C52/C76/C77 in a build that has the kind; refusal proved for builds without SSSE3 |
| C149 | `setImage` statement by statement over byte memory, the buffers with their alignment, the header given to the system; a specification says what the system shows for a header and bytes | loops to folds over the grid; the written cells as a function; `Covers` says which pixels may stand for a place of a reduced picture |
| C150 | the constructor over byte memory with the vector of the picture; the server as a specification with both orders of bytes | the same; from 2^30 pixels on a write behind the vector is reached (undefined) |
| C151 | the lists of strokes of the three windows and what they paint | induction over the history of calls |
| C152 | the `QImage` made of the image, with the documented meaning of its formats | unfolding for all images and pixels |
| C153 | `resize`, `stop` and the worker's loop as a transition system with the handshake of the start and the memory block of the flags; reading a released block is undefined | invariant over all events; some thread can move; a measure that every step decreases; second invariant for the first start |
| C154 | `DisplayHistogram` for numbers of 32 bits, with the wrapping product and pointers that may leave the block | invariant of both loops (which cells are white); picture stated with the extremes of the list, not with the model's search |
| C155 | the image container with places of memory, the functions registered per type of device, the three derived classes, failing allocations and copies | invariant over all calls (place of a block = type of its image); looks of images; exact statements for what throws |
| C156 | the same model: calls whose allocation fails | exact state after the failure; a second call; constructors leave nothing |
| C157 | `Gaussian` for CUDA: kernels as programs of threads in any order, transforms as exact Fourier sums (an assumption about cuFFT), numbers of the device are reals | each step by the theorems of C144, C145 and C79; convolution by the two-dimensional Fourier inversion of C80; the kernel is symmetric, so its transform is real and the product in place is right; witness for other sizes |
| C158 | providers and pools with their lives: construction, copy, assignment, `setThreadPool`, `_run`, `_wait`, both stages of destruction, and the execution of one task, each one step | invariant over all histories: an unfinished run has exactly its remaining tasks in the list of one existing pool; exactly once by a trace of the executed bodies; violated beyond that: witnesses and the general case |
| C159 | the accesses of every step of C42 to objects that are not atomic, with the mutex held | a race is a reachable state in which two threads can go on with accesses in conflict; excluded by the invariants of C42 (no task runs when its provider is told to be finished); violated: exact conditions and witnesses |
| C160 | the lists of functions each file registers, member by member; registration in any order; what each function of `penguinV` does with what it finds (convert, not convert, throw) | on top of the theorems about the manager (C66, C87), case analysis over members; violated for functions not registered, for conversions, for pinned images: general statements |
| C161 | the remaining forms of `image_function_helper.cpp` | the theorem of the long form, and what the checks accept and refuse |
| C162 | the detectors as objects: histories of searches, questions (values computed on demand), best blob, sorting | an invariant over runs: every stored value is that of the pixels or still zero; the searches by C122 and C57 |
| C163 | points over any type of coordinates with its operations; `uint32_t`, and rationals with rounding after every operation; angles | sums modulo 2^32 by induction over the sequence; error bounds for every rounding; violated: witnesses, exact statement for `!=` |
| C164 | the short forms of `filtering.cpp` on the heap of C101 | the theorem of the long form (C55, C56) and what the checks refuse |
| C165 | the four members of a limit and the calls that change them | induction over the history, from its end |
| C166 | `isSolid` on what the search gives | exact: by C54; no holes: the grid has no loops around anything, so a function which is constant on the background with the edge and one constant on the blob are both constant on the edge (`GridRim`); violated: witness |
| C167 | `Rotate` for CUDA, cosine and sine as parameters, any rounding with 24 bits | rounding error analysis of the point of each thread; each thread writes its own pixel; violated beside the image: witnesses |
| C168 | `SetPixel` for OpenCL, the arguments of the kernel with their kinds; the kernel found under the name is a parameter | the byte written, for all points; violated: witnesses, and never for other points than the first |
| C169 | the templates of `image_function_helper.cpp` over any function that starts a kernel, `Call1`, `Call2`; the short forms for CUDA and OpenCL | form of the whole image = form of its region; a new image has no pixel of the input, so C109 and C113 apply to it; Copy on OpenCL: violated for all inputs |
| C170 | the same templates with the pooled functions: the set-up by the calling thread, the tasks in all interleavings | the new image has no pixel of the input, so C49, C103 and C105 apply; refused calls leave the heap as it was |
| C171 | the short forms of `image_function_simd.cpp` over the build-dependent functions of C148 and the heap of C101 | the new image has no pixel of the input, so C148 applies; where C148 is partial, so are these |
| C172 | the functions of `penguinv.cpp` with the dispatch of C160 (which file's function is found) and the functions of C101, C161 and C171 | a call comes to the scalar or to the SIMD function (C160), each of which is right; the others are equal to the scalar ones |
| C173 | pooled calls as three parts: checks and cutting by the calling thread, tasks in all interleavings, putting together (`PoolNumbers.lean`) | from C50 (equal to the call without a pool in every interleaving) and C20, C24, C25, C28, C34 (what that call returns). |
| C174 | the transforms of C62 over numbers whose sums, differences and products are rounded by any function with a relative error (`HaarFloat.lean`); the coefficient is computed as in the code, with the precision of `float` | errors of one pass in terms of the errors before it, then four passes; the coefficient by evaluation. |
| C175 | what devices, programs, kernels and launches take from the driver and give back; every call of the driver may fail; releasing what is not held is undefined (`ClHandles.lean`) | invariant over all histories: held = owned by existing objects + lost; what each step can lose; witnesses by evaluation. |
| C176 | the enabled device types, the queries of `isOpenCLSupported` and `resetSupportedDevice` on a machine (platforms with devices of types; any query may fail; the driver refuses an empty set of types) | the last call by induction over the history; characterisation of the loop; the list by C139; violated: witnesses |
| C177 | lines of `math_base.h` with a rounding after every operation | error bounds step by step from the relative error of one rounding; best fitting line: violated, witnesses evaluated in the kernel in double and single precision |
| C178 | the programs of C128 - C130 with a rounding after every operation, and the table of sines and cosines made in `double` | calculus of relative errors; local error of every butterfly, growth by induction over the factors, factors are 4, primes or 1, so the growth is bounded by the prime factors of width and height; bounds by sums of absolute values for the round trip and the convolution; with the identity as rounding the programs are those of C128 - C130 |
| C179 | the templates of edge detection for `float`: conversions and operations are rounded to 24 bits, the contrast checks as before | the programs compute positions and points as those for `double` do; whether neighbouring edges are too near does not depend on the rounding, because positions next to a pixel without curvature are halves of integers; error of each point |
| C180 | the forms of `BinaryDilate` and `BinaryErode` for whole images and sequences of two calls | from the description of one call (C32): a pixel is white after closing if all pixels near to it are near to a white one, hence keeping and doing it again; half-way points inside of the rectangle for two dilations; duality by exchanging the two values |
| C181 | sequences of calls of the modelled functions (no new definitions of code) | the values of a moved rectangle are a permutation of the values, those of a changed one their images; counting them in two ways; laws of the operations on single values; images of other blocks stay as they are |
| C182 | sequences of calls of the modelled functions (no new definitions of code) | the blobs are the connected pieces of the set of pixels from the threshold on (C53); a movement which keeps neighbours maps pieces to pieces in both directions, hence as many; the points of all blobs are a permutation of the counted pixels; a dilated pixel is connected to its cause inside of the box around that |
| C183 | sequences of calls of the modelled functions (no new definitions of code) | the effect of each call on exactly its rectangle, composed; equal effects give equal memories; accumulation by induction over the list of images |
| C184 | sequences of calls of the modelled functions (no new definitions of code) | the median is unique and is kept by permutations and monotone functions of the window (decreasing ones for odd numbers of values); the absolute values of the two gradients under the symmetries of the 3 x 3 neighbourhood |
| C185 | sequences of calls of the modelled functions (no new definitions of code) | the range of the values determines the applied function; after a defined call the range is 0 to 255 or one value, so that the next call copies; moved pixels have the same range |
| C186 | `Bmp.Save` (Bmp.lean) | the saved bytes, known from the invariant of the row loop, are compared field by field and byte by byte with the format, which is stated on lists of bytes without functions of the model |
| C187 | sequences of calls of the modelled functions (no new definitions of code) | the effect of each call on exactly its rectangle, composed channel by channel |
| C188 | the model of edge detection of C57 (no new definitions of code) | every condition for an edge is one on differences of values, so the found places of each line are the same |
| C189 | calls of the modelled functions on parts of a rectangle (no new definitions of code) | the pixels of the rectangle are those of the parts in another order; counts and sums of lists |
| C190 | calls of the modelled functions on parts of a rectangle (no new definitions of code) | two writes to the parts are one write to the whole; what the second call reads was not written by the first |
| C191 | Subtract on parts of a rectangle (no new definitions of code) | as C190 for rows of equal length; violated otherwise: negation with witness |

## What is modelled

| code | model | not modelled |
|------|-------|--------------|
| `parameter_validation.h` | `Validation` | `std::string` messages, `Validate...` overload resolution |
| `image_buffer.h` | `Buffer`, `BufferStep` | device memory (its functions are those of main memory); blocks are never reused by the heap |
| `image_function.cpp` | `PixelFn`, `RowLoops`, `PixelCopy`, `Channel`, `Reduce`, `Resize`, `Dilate`, `Convert16`, `Normalize`, `Rotate` | `cos` and `sin` of the standard library (parameters) |
| `image_function_helper.cpp` (79-1025, the forms which return an image and of whole images, or return numbers) | `Forms`, `FormsMore` | failing allocations; `Copy` of whole images and `SetPixel`; the row size and type of the output are kept, alignment is 1 |
| `penguinv/penguinv.cpp` (all functions with images of the host) | `ApiForms` (dispatch: `Library`) | calls converted to another type of image (which calls are converted is in C160); the SIMD short forms of `image_function_simd.cpp` are here too |
| `image_function_helper.cpp` | `Normalize`, `Otsu`, `TypeManager`; the forms of `BinaryDilate` and `BinaryErode` for whole images (`image_function.cpp`) in `Morph` | |
| `image_function_simd.cpp` | `Simd*` | alignment and strict aliasing; the CPU has the instructions of the chosen set |
| `function_pool.cpp`, `function_pool_task.cpp` | `Tiles`, `Pool*`, `Interleave` | `ProjectionProfile` and `Normalize` of colour images are only proved wrong |
| `thread_pool.cpp` | `Threads*`, `PoolLife*` (start, change of size), `ProvLife` (lives of providers and pools, calls as single steps), `Races` (accesses and mutexes) | weak memory (sequential consistency), task bodies that do not end, threads that cannot be made |
| `memory/memory_allocator.h`, `cpu_memory.h` | `Alloc*` | failing `malloc`, `reserve` above 2^63 bytes |
| `blob_detection.cpp`, `blob_detection.h` | `Blob*`, `Detectors`, `BlobParams` | `sqrt`, `atan2`, `cos`, `sin` (parameters) |
| `edge_detection.cpp`, `edge_detection.h` | `Edge*`, `Detectors` | histories of calls of the `float` instance |
| `filtering.cpp` | `Filter*`, `Gauss` | - |
| `fft.cpp`, `math/fft_base.cpp`, `thirdparty/kissfft` | `Fft`, `Kiss` (exact complex numbers), `KissFl` (rounding) | overflow, underflow and fused operations, the library functions `cos` and `sin` (assumed right up to 2^-50), the OpenMP branch, more than two dimensions, alignment of the plan in its memory |
| `cuda/cuda_types.cuh`, `opencl/opencl_types.h` | `DevArray`, `DevType` | the pool behind the allocations (see `DeviceAlloc`), sizes in bytes, threads |
| `cuda/cuda_device.cu`, `getCudaStream` of `cuda/cuda_helper.cu` | `CudaDevice` | names, capabilities and dimensions of devices, callbacks and state of streams, overlapping calls of threads, references to closed devices |
| `opencl/opencl_device.cpp`, `.h`; `GetProgram` of `opencl/image_function_opencl.cpp`; `CreateProgramFromFile` of `opencl/opencl_helper.cpp` | `ClDevice`, `ClFill` | names and memory of devices, logs of builds, patterns of several bytes, overlapping calls of threads except in `memorySet`, references to closed devices, leaks of a device whose queue cannot be made |
| `opencl/opencl_device.cpp`, `.h`: constructors, destructors, `setQueueCount`, `synchronize`; `runKernel` and `launchKernel…D` of `opencl/opencl_helper.cpp` | `ClHandles` | `std::bad_alloc`; what the driver does with a handle; buffers and their memory (`DeviceAlloc`, `ClDevice`). |
| `opencl/opencl_helper.cpp` 28-31, 88-136 (types of devices, `isOpenCLSupported`) | `ClSupport` | changes of the machine between two queries, types set by several threads |
| `math/math_base.h` 62-121, 167-185, 222-241, 248-317 with rounding (constructor from two points, `intersection`, `isParallel`, `distance`, `projection`, `opposite`, `bestFittingLine`) | `LineFl` | infinities, NaN, subnormal numbers; `sqrt`, `atan2`, `cos`, `sin` are parameters |
| `math/fft_base.h` (`BaseComplexData`), `ComplexData` of `fft.cpp` and `cuda/cuda_fft.cu` as objects | `CplxData` | what the kernels write (contents come as values), numbers are of any type |
| kernels and functions of `cuda/cuda_fft.cu` | `GpuVal`, `CudaFft` | fused operations of the compiler, values which are no numbers; cuFFT itself |
| `math/fft_base.cpp`, `FFTExecutor` of `fft.cpp` and `cuda/cuda_fft.cu` as objects | `FftExec` | what the library does with a plan (for the host see `Kiss`) |
| `math/*` | `Haar*`, `Hough*`, `Roots*`, `Line`, `Points` | infinities and NaN |
| `file/bmp_image.cpp`, `file/raw_image.h` | `Bmp*`, `Raw` | the stream library (an arbitrary environment decides which calls succeed; reading never fails half-way) |
| `file/png_image.cpp`, `file/jpeg_image.cpp`, `file/file_image.cpp` | `Formats` | libpng and libjpeg (expectations `PngLaw`, `JpegLaw`: PNG is lossless, sizes of rows); their errors, which end the process; rows that cannot be allocated; JPEG Load into an image that has pixels |
| `tool/light_correction.cpp` | `Light` | - |
| `penguinv/*` | `TypeManager`, `Library` (lists of registered functions, initialisation of static objects) | images of types the user defines (their registration is an operation of `TypeManager`) |
| `penguinv/cpu_identification.h`, `cpu_id_unix.h`, `cpu_id_windows.h`, `image_function_helper.cpp` 1101-1160, dispatch of `image_function_simd.cpp` 2444-3608 | `SimdBuild` | CPUID itself (a function of leaf and register); first use from several threads (static variables) |
| `cuda/cuda_helper.cu`, `cuda/cuda_device.cu`, `opencl/opencl_helper.cpp` (launch sizes) | `GpuGrid` | devices, streams, queues; compilation of kernels |
| `cuda/image_function_cuda.cu` | `Gpu*`, `Cuda`, `CudaReduce`, `CudaSetPixel`, `CudaRotate`, `DeviceForms`, `GpuTransfer` | driver errors after a launch; weak memory of devices (a single access is atomic; the proofs show that no two threads touch the same byte unless both read it, both update it atomically, or both write the same value); NaN and infinity, and multiplications fused with additions, in `Rotate` |
| `opencl/image_function_opencl.cpp` | `OpenCl`, `ClSetPixel`, `DeviceForms`, `GpuTransfer` | as for CUDA; compilation of the kernels; which of two kernels of the same name is found for `SetPixel` (a parameter); what `Normalize` would do after its exception |
| `cuda/cuda_memory.cuh`, `opencl/opencl_memory.h` | `DeviceAlloc` | failures of `cudaFree` and `clReleaseMemObject`; destructors; a `cl_mem` is the offset of its block |
| `ui/ui.cpp`, `ui/win/win_ui.cpp`, `ui/x11/x11_ui.cpp`, `ui/qt/qt_ui.cpp` | `Ui` | message loops, the graphics systems (specifications say what they show for the data handed over), pens and scale of drawings, the floating-point arithmetic of the reduced size (a parameter), windows of failed creation |
| `tool/ui/tool_ui.h` | `UiHist` | numbers other than `uint32_t`; the pointer one row before the picture, formed but not read after a full bar |
| `image_buffer.h` with `cuda/image_buffer_cuda.cuh`, `cuda/image_buffer_cuda_pinned.cuh`, `opencl/image_buffer_opencl.h` | `BufDev` | `assign` and `mutate` (see `Buffer`), the pools behind the allocations, releases that fail, sizes in bytes, threads |
| `cuda/filtering_cuda.cu` | `CudaGauss` | both forms of `Gaussian` and `GetGaussianKernel`, with the transforms of `cuda_fft.cu` 182-208 and 228-232; allocations succeed, kernels run one after the other, numbers of the host are rationals and those of the device reals; cuFFT is a parameter, exact in the theorems |

Not modelled at all: cuFFT itself (a parameter), the Python binding.

## Axioms per theorem

All theorems depend on a subset of `propext`, `Classical.choice`, `Quot.sound`.  The
witnesses found by evaluation (`..._wrong`) use `decide +kernel`, i.e. evaluation inside
of the kernel, and no further axiom.

## Where the code disagrees with the properties

Each entry has a theorem with a concrete witness (suffix `_wrong` or `_ub`), the claim
proper is proved under the guard named in the manifest.

* C06 self copy-assignment of an image empties it.  C07 products of sizes wrap at 32 bits.
* C12 `Subtract` with rows of the second input of a different length.  C16 copying in place is `memcpy` on
  overlapping ranges (also `Median` in place).  C21 `RgbToBgr` in place.  C22 RGBA inputs of `ConvertToGrayScale` and
  `ConvertToRgb` are read with the wrong stride.
* C24 `Histogram` of colour images counts wrong pixels or runs out of the image.  C30 the list form of `SetPixel` is not
  atomic.  C36 sizes of 4 GiB.
* C31 `Resize` products wrap (65537 pixels wide).  C32 the position array of `Dilate` is computed with 32 bits.  C33 the start
  offset of 16-bit conversion is not multiplied by the number of colours.  C73 no check that colour counts agree.
* C34 unused look-up table entries convert out-of-range doubles.  C35 and C75: 2^32 pixels divide by zero; sums of values wrap above 16.8
  million pixels.
* C37 requests that overflow `size_t` get one byte.  C39, C40 blocks released in another order are not merged, or alignment is lost.
  C41 a refused request leaves the mutex locked.
* C45, C46, C47, C68, C69 thread pool: waits that never return after `clear`, counters of an earlier, longer run are reused, resizing to fewer
  threads, workers that still look at counters of a destroyed provider.
* C50 pooled horizontal profile of colour images.  C51, C52, C76, C77: permuted results of AVX, AVX-512 and SSE forms.
* C57 more lines per group than there are, wrapped contrast offsets.  C58 bitmap files below 76 bytes cannot be loaded.  C59 raw files of padded
  rows.  C61 room for roots.  C62, C63, C65, C72, C78, C79, C81, C83, C84, C85 as in the manifest.
* C64 correction before analysis (uninitialised members), after a failed analysis (division by zero), with images of another size.
* C66, C87 three functions are forgotten when tables are merged.  C88 conversion of two inputs leaves a dangling reference.
* C89 a height of -2^31, or a height whose product wraps.  C90 the first row of 256-colour images is never converted.
* C96 rotation by zero clears the last row and column; the form for a new image passes the same centre for both images.  C98 `Shift` reads a row and
  a pixel after the region.  C99 columns before the image are not left empty.  C100 whole shifts are one pixel short.
* C101 The forms of LookupTable, GammaCorrection and Normalize that return an image make a gray-scale image whatever the input is, and
  throw for colour images.  The forms of Resize do the same, but Resize does not compare the colours: it writes three bytes
  for every byte of the new image, after its end.
* C104 the pooled `Normalize` throws for colour images (or runs out of the image, as C24).  C105 the pooled `Resize` resizes tile by tile; the
  pixels taken depend on the number of threads.
* C106 three-dimensional launches: when a limit of the device forces the block to be reshaped, the third side is not counted and the block gets
  too many threads.  C110 `ConvertToRgb` on CUDA reads RGBA images as gray-scale images.
* C113 OpenCL: the input offset is `startX * rowSize + startY * colorCount`, with the coordinates exchanged, in Threshold, LookupTable, GammaCorrection,
  Fill, Histogram, Copy, ExtractChannel and the conversions.  The kernel of Copy ignores the output offset and adds a row.  The one of ExtractChannel multiplies
  the row offset by the number of colours.  Flip is launched for the whole image.  Normalize sets nine arguments of a kernel with six parameters.
* C114 bytes are copied without regard to the rows when the image of the host has no padding, even if the image of the device has: wrong pixels on
  the way to the device, bytes written behind the image on the way back.  Padded images of the host cannot be brought to an OpenCL device.
* C115 CUDA `SetPixel` does not look at the colours: byte x of the row is set.  Empty lists are accepted.
* C117 as C40, in the memory of CUDA devices.  OpenCL blocks are aligned, because no chunk is smaller than the alignment (taken in bytes where the
  device gives bits, so eight times more than necessary).
* C119 the squared length of a blob overflows `int32_t` (undefined) as soon as its ends are 46341 pixels apart.  C120 the sums of the coordinates are
  taken as `int`: the centre of a row of 65538 pixels is negative.
* C121 the elongation: the end point takes its y from the x list, so the angle is arbitrary: a vertical line of four pixels has elongation 1 or 3
  depending on its column.  C123 `sort` sorts in descending order where the header says ascending; a criterion without limits in the search
  compares zeros (the header warns of this).
* C124 PNG Save takes three bytes per pixel also from images with four colours: pixels are shifted.  C125 JPEG Save ignores where the rectangle
  begins; images with four colours end the process (error handler of libjpeg); JPEG Load counts bytes in `uint32_t` and leaves pixels behind 4 GiB
  uninitialised.  C126 a missing JPEG file throws, any other missing file gives an empty image.  C127 red and blue are exchanged in JPEG files.
* C128, C130: `FFTExecutor` makes its plans with the dimensions (width, height) (`fft.cpp` 205), but kissfft wants the dimension of the slowest index
  first and the rows are `width` long. The values are transformed as `width` rows of `height` values. For images which are neither square nor one row
  or column the spectrum is not the Fourier transform of the image and a convolution lands in wrong places (`C128_wrong`, `C130_wrong`;
  `_exact` gives what comes out). The inverse transform makes the same mistake, so that a round trip (what the unit tests do) is right: C129 holds.
  `cuda/cuda_fft.cu` 230 passes the dimensions to cuFFT in the same order. The constructor without arguments always throws (`C128_rejects_empty`).
* C132: copying an empty device array throws (and empties the target); `a = a` copies between overlapping ranges; OpenCL arrays and
  values cannot be copied at all.  If an allocation fails in `resize` or an assignment, the array is empty but keeps its old size: the
  next `resize` to this size does nothing, the next assignment of as many values is lost without an error, and `get` gives zeros.
  A constructor which throws after its allocation leaks (the destructor does not run).
* C133: the same leak without any failure: `Type c( a )` if the value of `a` was moved away.
* C135: `~CudaDevice` makes the device current and the default of the thread (cuda_device.cu 123-130), and `closeDevice` does not undo
  this: after closing device 1 the default of the thread is the closed device, and `device()` throws although device 0 was set and is
  open (`C135_close_wrong`); after `closeDevices` and `initializeDevices` the default is the last device instead of the first.
* C136: `setThreadsPerBlock` compares `static_cast<int>( threadCount )` (cuda_device.cu 194), which is negative from 2^31 on: such counts
  are accepted (`C136_threads_wrong`). `setStreamCount` and `synchronize` do not make the device current: they create streams on, and
  wait for, the default device of the calling thread (`C136_streams_wrong`, `C136_synchronize_wrong`). `CudaDevice( -1 )` makes an
  exception without throwing it (cuda_device.cu 93-94); not reachable through the manager.
* C137: `device( id )`, `setActiveDevice( id )` read `_supportedDeviceId[id]` without check once a device is open (`C137_out_of_range`);
  `setQueueCount( 0 )` is accepted and `queue()` then reads outside of the vector (`C137_no_queue_wrong`).
* C139: a device whose context cannot be made lowers the count and is tried again (opencl_device.cpp 461-471), so that all devices of the
  platform behind it are dropped, except in the last platform, whose broken devices stay in the list (`C139_wrong`). Default devices of
  threads keep their numbers when the list changes (`C139_reset_wrong`).
* C140: programs and the kernel for filling memory are kept per `cl_device_id` for ever, also when the device is closed; the new context
  after opening it again differs, and every launch fails (`C140_reopen_exact`). `deviceProgram[id] = shared_ptr( new … )` may leave an
  empty entry when the build throws (`C140_build_wrong`).
* C141: the kernel of `memorySet` is shared by threads; the lock ends before its arguments are set (`C141_threads_wrong`). Sizes are cut
  to 32 bits (`C141_size_wrong`).
* C142: `CreateProgramFromFile` gives the contents of a file to the library without terminating zero and without length (`C142_wrong`).
* C143: `operator=( const BaseComplexData & )` with the object itself empties it: `_copy` cleans the object before it looks at the other
  one (`math/fft_base.h` 132-140).
* C143: `ComplexData( data, width, height )` (`fft.cpp` 33-37) leaks its array if the vector has another size: `set` throws, the destructor
  does not run and the one of the base class releases nothing. The same for the copy and image constructors for CUDA (`cuda_fft.cu` 95-103)
  if the copy or the kernel fails.
* C143: sizes are products of `uint32_t` (`fft_base.h` 79, `fft.cpp` 61): 65536 x 65536 gets no memory at all, while copying on the host uses the
  product in `size_t` (`fft.cpp` 140).
* C144: `set( image )` for CUDA (`cuda_fft.cu` 127) ignores the row size of the image, so padding becomes data.
* C144: `get()` for CUDA (`cuda_fft.cu` 62-68) with odd width or height: several threads write one pixel, and others are not written.
* C145: `complexMultiplication` for CUDA (`cuda_fft.cu` 215) runs over the size of the executor without comparing it with the data: a larger executor
  accesses memory outside of the arrays, a smaller one leaves products out. With the result in a factor the imaginary parts are wrong, as on the host.
* C146: executors can be copied (no copy constructor is deleted), and both destructors release the plans. If plans cannot be made, the executor has
  the new size nevertheless, and on the host no exception says so before the first transform.
* C147: `isAvx512SKLSupported` (`cpu_id_unix.h` 68, `cpu_id_windows.h` 63) compares the five bits with `!= 0`, so one part of AVX-512 is enough
  (Knights Landing has F and CD only). None of the questions asks whether the operating system saves the registers. SSSE3 code is used if SSE2 is there.
* C148: without `__SSSE3__` (gcc and clang for x86-64 without options) `simd::ConvertToRgb`, `Flip` and `RgbToBgr` throw "incorrect logic" for
  every rectangle at least one register wide (`image_function_simd.cpp` 2826-2829, 2864-2869, 3068-3072).
* C149: `UiWindowWin::setImage` of an empty image (`win_ui.cpp` 225) leaves the former picture; a reduced size of zero (233-240) shows nothing or
  keeps the former size; positions of reduced very wide images are computed modulo 2^32 (256-259), so their middle shows the left end.
* C150: the buffer of the X11 window has `width * height * 4` bytes modulo 2^32 (`x11_ui.cpp` 89) and is overrun from 2^30 pixels on; servers which take
  the most significant byte first show other colours (no byte order is set, 126); four colours throw after the window was made; without an image
  `XPutImage` gets a null pointer.
* C151: X11 and Qt windows ignore `setImage` (`ui.cpp` 37-41 only stores the image), X11 windows ignore lines, ellipses and rectangles (`ui.cpp` 43-61),
  and on Windows all points are painted before all lines and all ellipses.
* C152: `Format_RGB888` (`qt_ui.cpp` 30) takes the blue, green, red of loaded images as red, green, blue; four colours are taken for three.
* C153: workers read `_exit` without a lock (`thread_pool.cpp` 287, 292) while `resize` may move the vector (166): released memory is read.
  `_threadsCreated` is never reset, so only the first `resize` waits for its threads (175).
* C154: `DisplayHistogram` multiplies by 100 in 32 bits; for a range of 42949673 and more bars have wrong lengths. Witness `C154_wrong`; `C154_exact` says which lengths for every histogram.
* C155: the copy constructors of `ImageTemplateCuda`, `ImageTemplateCudaPinned` and `ImageTemplateOpenCL` start with the default constructor of the base class, whose type is main memory, and then assign: the assignment of another type throws. `C155_copy_construct_throws` shows this for every image on a device.
* C155: after the move construction of a device image the source is an image in main memory, although declared as a device image (`C155_moved_wrong`).
* C155: `fill` of CUDA images with 16-bit elements uses `cudaMemset`, which writes the low byte twice (`C155_fill_wrong`).
* C155: the copy constructor of the base class does not release the new block when copying device memory throws (`C155_leak_wrong`).
* C155: memory is released to the device that is active then, not to the one it came from (`C155_active_wrong`; the model calls this undefined: a pool refuses it and the destructor ends the program, CUDA without a pool accepts it).
* C156: `resize` and `copy` store the sizes before the allocation. When it fails the image is empty but has width and height, and the same `resize` again does nothing (`C156_failed_exact`, `C156_wrong`).
* C157: `_makePlans` (`cuda_fft.cu` 230) makes the plan with width and height exchanged, so images which are not square are treated as images of `height` columns and `width` rows (`C157_wrong`: 89 instead of 111).
* C157: `complexMultiplication` is called with the result in place of the first factor (`filtering_cuda.cu` 57): the kernel (`cuda_fft.cu` 83-84) makes the imaginary part with the new real part (`C157_product_exact`). It does no harm for even square sizes because the transform of the kernel is real there.
* C157: for odd sizes the last column or row of the result is never written (`C157_odd_exact`).
* C158: `~TaskProvider` (`thread_pool.cpp` 108-112) removes the provider from the pool it points to now; after `setThreadPool` or an assignment with unfinished tasks the old pool still holds it and calls a pure virtual function (`C158_moved_exact`).
* C158: a provider that outlives its pool, even without tasks, uses the pool in its destructor (`C158_pool_first_wrong`).
* C159: `_exceptionRaised = true` (`thread_pool.cpp` 63) is written by several workers without a lock; `_exit` is read without a lock (287, 292) while `resize` and `stop` write it; `threadCount()` (211) reads a vector `resize` changes.
* C160: `Flip`, `IsEqual` and the list form of `SetPixel` of the CUDA file, and `Flip`, `Normalize` and the list form of `SetPixel` of the
  OpenCL file exist but are not registered, so that the functions of `penguinV` throw for device images. With conversions enabled only
  `AbsoluteDifference`, `ConvertToGrayScale`, `Histogram` and `Threshold` convert images (penguinv.cpp 87, 181, 320, 591), and these four are
  registered for both devices; every other function hands device images to the function of the host. No file registers
  functions for images in pinned memory.
* C162 a blob asked through a constant reference (all that `find` returns) answers 0 for every value that was not limited in the search or asked
  for before; a rejected search for edges empties both lists, while one for blobs keeps them.
* C163 `PointBase3D` has its own `operator==` and inherits `operator!=` of `PointBase2D`: points which differ in `z` only are neither
  equal nor unequal. Points with floating-point coordinates are compared with a tolerance, so equality is not transitive.
* C166 a ring one or two pixels thick around a hole is solid: its inner edge points are connected to the outer ones.
* C167: `rotateCuda` (image_function_cuda.cu 317-318) converts coordinates to integers by `static_cast`, which goes towards zero: a point
  less than one pixel to the left of or above the image is taken for a point inside, with a negative weight.  The value is extrapolated: it
  can be brighter than all pixels, and for bright images it does not fit into a byte (the conversion is undefined).
* C168: `SetPixel` for OpenCL (image_function_opencl.cpp 1230) gives the kernel `x * rowSize + y` as offset, and the kernel (332) adds
  `y * rowSize + x` to it: the byte x + y of row x + y is written, or memory behind the image.  The list form (1260) leaves out the offset,
  so a buffer is given for the parameter `height`: every call ends with an exception.
* C169: `Image Copy( in, startX, startY, width, height )` on OpenCL devices writes beyond the memory of the new image for every image and every region, since the kernel adds the size of a row where the offset of the output is meant (`C169_opencl_copy_never`). The other short forms inherit the disagreements of the long forms (C109, C113); those for whole images begin at (0, 0), where the long form is right.
* C172: with the SIMD file linked the SIMD function is used even where it cannot work: in a build with SSE and without SSSE3 (gcc and clang for
  x86-64 without further options) `penguinV::Flip`, `RgbToBgr` and `ConvertToRgb` throw for rows of a register or more, although the scalar
  functions are there (`C172_ssse3_wrong`). `penguinV::Threshold` with limits in the wrong order is refused without the SIMD file and accepted
  with it (`C172_threshold2_wrong`).
* C172: `penguinV::Copy( in, out )` replaces `out` by a new image whatever its size (`C172_copy`), while `Image_Function::Copy( in, out )`
  refuses images of different sizes.
* C174: the Haar transforms of `double` vectors use `1.0f / std::sqrt( 2.0f )`, a `float`; so the inverse restores `double`
  values only with the precision of `float` (the error is more than 1 / 2^24 of the greatest value of every block).
* C175: `runKernel` (opencl_helper.cpp 76-85) takes an event for every launch and never releases it (`C175_events_kept`). The constructor of
  `OpenCLDevice` keeps its allocator in a plain pointer: when the first queue fails, the destructor does not run and the allocator is lost
  (`C175_device_wrong`). The constructor of `OpenCLProgram` releases a program which is not built only after the calls which ask for the
  log have succeeded (`C175_program_wrong`).
* C176: when the second query for the devices fails `isOpenCLSupported` is true and no device is listed; a device which cannot be used is listed
  (as in C139, `C176_wrong`).
* C80: with `double` the points counted for a line and the points reported for it differ. The search compares the differences of distances with twice
  the tolerance, the last pass compares each distance with the rounded middle plus or minus the tolerance (hough_transform.cpp 92-107, 121-135). Of four
  points at 0.5 and 1.7 with tolerance 0.6 two are reported (`C80_rounded_wrong`). Besides, the angle of the search is a sum of steps and that of the
  last pass a product.
* C61 with rounding: the test for a vanishing pivot is absolute (`1e-10`, math_base.cpp 92), so for large coefficients the rounding errors pass it:
  49000049 x + 49000000 y = 0, 1000001 x + 1000000 y = 1 has no solution (the rows are dependent) but is given one with y = 2^33. Theorem
  `C61_rounded_wrong`.
* C177: `bestFittingLine` (math_base.h 302-303) takes variances as mean of squares minus square of the mean. With rounding all digits may cancel: for
  (10^8, 10^8) and (10^8 + 1, 10^8 + 1) in `double`, or (5000, 5000) and (5001, 5001) in `float`, the direction becomes (0, 0), `atan2` gives 0 and the
  line is horizontal. Theorems `C177_fit_wrong`, `C177_fit_single_wrong`; in exact arithmetic the direction is that of the points.
* Not a property here, seen while modelling: `LineBase2D::operator==` (math_base.h 195-198) calls `parallel`, which does not exist (the member is
  `isParallel`), so comparing two lines does not compile.
* C179 (edges with `float` points): coordinates of 2^24 and above have no room for odd numbers. The edges of the rows 16777216 and 16777217 are reported
  as one and the same point (`C179_wrong`); the claim is proved for regions which end before 2^23.
* C180 (sequences of dilations): two dilations by two pixels of a rectangle of five columns are more than one dilation by four, because numbers greater than
  half of the rectangle are taken as that half (`C180_twice_wrong`); the claim is proved up to half of the rectangle.
* C181 (equality by the sum of the absolute difference): 16843010 pixels whose differences have the sum 2^32 are taken as equal by this test
  (`C181_difference_wrong`); the claim is proved for up to 2^32 / 255 pixels.
* C188 (edges in brighter images): the contrast check compares means rounded to `double`. With means of three pixels and a contrast of 8 an edge is found in
  the row 0, 0, 0, 1, 9, 8, 8, 8 but not in the same row brighter by 8, where the difference of the means is computed as a little less than 8
  (`C188_wrong`); the claim is proved without this check at any rounding, with means of powers of two of pixels at the rounding of the code, and with all
  means in exact arithmetic.
* C191 `Subtract` with an unpadded first input and output and a padded second input: two rows at once give another image than one row after the
  other (the cause is that of C12).
* Not a property here, seen while modelling: the variadic templates of `parameter_validation.h` (102-136, 73-85) take all images
  but the first **by value**.  Every call copies whole images to check their sizes; in pooled functions each task copies the
  output image while other tasks write to it, which is a data race by the rules of C++ (without an effect on values).
  The copies are not modelled.

Found in the code, outside of the properties: `operator==` of lines calls a function that does not exist; `BaseComplexData` loses its data in a
self-assignment.
