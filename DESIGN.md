# Formal model of Cuttlefish in Lean 4

This document says what is modelled, how each property of `properties.jsonl` is
stated and proved, and what has to be trusted.  It is written before the proofs and
kept current as the model grows.

## Conventions

* `lean/Verif/Model/*`  - the model: total, computable functions that follow the C++
  function by function.  Each definition cites the file and lines it models and says
  where it simplifies.
* `lean/Verif/Spec/*`   - small specifications that do not use the model's helpers
  (file-format readers, geometric definitions, "nearest value", ...).
* `lean/Verif/Proofs/*` - helper lemmas.
* `lean/Verif/Props/*`  - the property theorems, named `Cnn_...`, each with an
  `example` that shows a concrete, non-trivial case meeting its hypotheses.
* 32-bit `unsigned int` arithmetic is modelled by `Nat` with explicit reduction modulo
  2^32 wherever the code can wrap.
* Undefined behaviour is a distinct outcome (`Res.ub`), never assumed away.
* External libraries (FreeImage, rgbcx, squish, bc7enc/bc7e, Compressonator, etc2comp,
  astcenc, PVRTexLib, glm, libstdc++ streams) are parameters of the model.

## Plan per property

| id | what is modelled | proof |
|----|------------------|-------|
| C01 | `isFormatValid` table, `createConverter` switch, feature macros as parameters | case analysis over the complete finite tables, lifted to `convert` |
| C02 | `isFormatValid(file)`, the three format-info switches, the writers | table case analysis + writer lemma for a stream that never fails |
| C03 | buffer sizes in the converter constructors with 32-bit arithmetic | arithmetic; counterexample for wrap-around, partial theorem below it |
| C04, C05 | `clz`, `maxMipmapLevels`, extents | induction / `Nat.log2` lemmas |
| C06-C12 | `Texture::Impl` as a state machine, images abstract, image library a parameter | invariants over histories, refinement to a map of slots |
| C13, C14 | job list, atomic counter, worker loop as small-step interleaving semantics | invariant over all executions, confluence by disjoint writes |
| C15-C18 | batch loop, packing, clamp/round/cast over exact numbers with NaN and infinities and a rounding function | induction over the loop, bit-field arithmetic, order arguments |
| C19 | gather loops of the block converters | induction over loops |
| C45 | `compressBlock` of the S3TC converters, ETC, ASTC and PVRTC `process`, their options, libraries as functions of their arguments | case analysis per format, rounding lemmas, the whole table of 256 alpha bytes |
| C20-C23 | the three writers as byte producers on a stream that may fail after any byte | reader written separately as specification, round trip by induction; prefix invariant |
| C24, C25 | `fileType`, `save` overloads | direct |
| C26, C27 | rotate/flip/swizzle on pixel grids | extensionality |
| C28 | get/setPixel per image format | arithmetic |
| C29 | colour-space functions over the reals; again with rounding and a `pow` accurate to 50 bits (`AccuratePow`) | real analysis (monotonicity of powers); Lipschitz bounds of the powers (Bernoulli) and error sums |
| C30 | box/linear filter windows, 3D reduction; the windows again with rounding of doubles | order arguments over the rationals; half-integers below 2^53 are exact doubles, powers of two absorb rounding; for the box filter, the rounded sum of m values ≤ b is ≤ m·b because m·b is a double when b is a single; for the linear filter and the 3D reduction, each step adds at most 2^-51 to the relative error of the sum, and an error below 2^-26 vanishes when the quotient is rounded to single precision; sRGB images by the error sums of C29 around the linear filter |
| C31 | neighbour selection and normalisation; again with rounding and a correctly rounded `sqrt` (`RoundedSqrt`) | case analysis, real square root; relative errors of slopes, length and quotients; the root of a rounded square is not below the number, so that no coordinate exceeds 1 |
| C32 | value-range adjustment | arithmetic; grey sRGB pixels stay within 2^-18 with an accurate `pow` |
| C33-C35 | the option loop of `CommandLine::parse`, `validate` | invariants over the argument list |
| C36 | `nextPO2`, `nearestPO2`, `getDimension` on 32-bit words | bit-smearing lemma |
| C37 | context pool, workers and library contract as a small-step system (`Model/AstcPool`) | invariant over histories: the live contexts are exactly those held or pooled, each once |
| C38 | `readStreamData` over a seekable / non-seekable stream | induction over chunks |
| C39 | `createParentDir` over an abstract file system | induction over the path |
| C40, C41 | `ImageIndex`, `CustomMipImage` with explicit object identity | direct / heap invariant |
| C42 | `hasAlpha` | full table; counterexample A4R4G4B4 |
| C43 | `main`, `saveTexture` | case analysis |
| C44 | copy and assignment on a store of textures | direct |
| C46 | the format tables of the writers | tables of the published codes as specification, whole-table case analysis, bit positions of the texel fields |
| C47 | pre-multiplication and grayscale of images | every pixel of the result is the stored form of the specified colour, through the loop lemma of C27; laws of the specified colours over the reals; error sums of the doubles with an accurate `pow` |
| C48 | `Image::convert` | loop lemma over the pixels; which conversions are the library's own as a specification; error bounds of IEEE doubles for single conversions and the round trip |
| C49 | `CommandLine::parse`, `readImageList`, `readCustomMipList` as modelled for C33 and C34 | specification of the options: names, texts of the arguments and what each one sets; refinement of the loop by induction on the list of options |
| C50 | `loadAndProcessImage` and the loops of `loadImages`, on the images and methods of C26-C32, C47 and C48; `Image::load` is a parameter | shape of the image kept through the steps; definedness with IEEE arithmetic step by step; colours as a map of pixels composed in exact arithmetic; induction over the lists of images |
| C51 | the tool as in C43, the conversion as in C09 and the writers as in C20-C22 | composition: the images stored by the loop over the images, level 0 kept by `generateMipmaps`, the contract of `convert` and the readers of the containers |
| C52 | all of C51, C50, C32 and C16-C18 together, in IEEE single precision; `Model/FloatImage` is the view of an image that converters have; FreeImage's conversions of integers to floats are assumed to be near enough (`ReadsWell`) | composition: error of the float below a quarter of a step, recovered exactly by the rounding of the encoder; place of the pixel by C26, place of the surface by C51 |
| C53 | the texture machine of C12 with the images of C30 as its image library (`Model/TextureImages`; any library that agrees with the modelled class where that is defined) | induction over the levels of `Spec.chain` and `Spec.chain3d`, once for any arithmetic and notion of range (`RangeLib`); ranges of ranges compose; used in exact arithmetic, for linear textures with the rounding of doubles and singles, and for sRGB textures with errors that add up |
| C54 | the tool from `main` to the bytes of the file (C43, C51) with the mip chains of C12 | the stages of the job (loaded images, texture before and after the mip levels, converted texture) are a history of calls; C12 gives the chain, C21 the encoding, C20 the place in the file |
| C55 | `Image::load(fileName)`, `Image::Impl::create` and `getFormat` on bitmaps as FreeImage documents them (`Model/Load`); the readers of FreeImage and its palette conversions are parameters | what a bitmap shows is a specification of its own (`Spec/Picture`); case by case over the types, with a lemma on masks of words |
| C56 | the masks and shifts that `Image::Impl::create` computes | the word of a pixel (`Spec.pixelWord`) against `getPixel`; field arithmetic on words |
| C57 | `Image::load` for streams and memory, and the stream adapter (`Model/ImageStreams`); a reader of FreeImage is any program over its four functions | a simulation by induction over the program, between the stream and the file of the C library (`Spec/Streams`); C38 for streams that cannot be positioned |
| C58 | `Image::save` for streams and memory, and the stream adapter (`Model/ImageStreams`) | the same simulation for writers, with streams that may run out of room; C38 for the memory |
| C59 | image variables, the handles of the library and when they are taken and given back (`Model/ImageObjects`); what the library returns is part of the operations | invariant (owned exactly once) and refinement to a program on values (`Spec/ImageValues`), by induction over the operations |
| C60 | the whole tool (`Model/ToolMain`) with the texture, the converters and the savers; undefined operations are the outcome `Res.ub` | encoding and saving are defined (from the facts of C15, C20 to C22), the calls of a job keep the texture's invariant, composition with C34 and C50; the conditions are those of these parts; `C60_images_partial` puts all parts together with the modelled images: C63 replaces the image library, C65 gives the pixels that can be stored, and the command line gives the rest |
| C61 | the constructors of the block converters: levels, profiles, metrics, presets, weights and swizzles (`Model/EncoderOptions`); constants of the libraries are parameters | case analysis over pairs of qualities, monotone rounding for the ETC effort; the mask from C45 |
| C62 | the conversion instruction (`Model/HalfFloat`), the test for it and the branches of the converters; `glm::packHalf` and the packers of the two packed float formats are parameters | half floats as numbers (`Spec/HalfFloat`); counting in the spacing of a binade gives the bits, so rounding the count is rounding to the nearest; texels as in C16 |
| C63 | the texture calls and the tool with the image methods as an unknown library that is only tied to the modelled class `Image` where its methods have a result | two runs with any two such libraries go in step: every image in the texture is valid, four floats per pixel, countable (an invariant), so every method that is called is defined in IEEE arithmetic (C28, C30, C47, C48, slices of 3D mipmaps); processed images stay valid because rounding a float gives a float |
| C64 | as C63, in IEEE arithmetic, and the tool's loader; `pow` and FreeImage's conversion and filters are assumed to keep 0 to 1 (`Spec/Unit`) | rounding is monotone and 0 and 1 are doubles and floats, so weighted means with rounding stay between (the weights of the filters and of gray are followed to the last bit: the rounded weights of gray add up to 1, and 1.055 - 0.055 rounds to at most 1); as an invariant of the calls by the machinery of C63 |
| C65 | as C64, for every type of texture and for normal maps; FreeImage's conversion and filters are assumed not to leave the range (`Spec/Range`) | bounds that are 0 or powers of two are numbers of every precision used, so the argument of C64 holds for them in linear images; the steps of the loader before the range is adjusted are those of C64, the adjusted values are followed with rounding, and normal maps are those of C31; `C60_images_partial` now rests on this |

## Trusted base

* **Lean's kernel** (4.33.0) and the Mathlib modules imported (one at a time).
* **Axioms.** Every theorem depends on a subset of `propext`, `Classical.choice` and `Quot.sound`,
  Lean's standard three.  No axiom is added; there is no `sorry`, `admit`, `native_decide`,
  `bv_decide`, `implemented_by` or `unsafe`.  `decide` / `decide +kernel` is used only on complete
  finite tables (all formats, all 256 bytes) and to evaluate concrete examples and witnesses.
* **The model is the code.**  The theorems speak about the definitions of `Verif/Model`.  That these
  follow the C++ is checked by reading: each definition cites the lines it models.
* **The specifications** of `Verif/Spec` say what the English properties say; they are short and
  do not use the helpers of the model.

### What is modelled

| source | modelled by | not modelled |
|--------|-------------|--------------|
| `lib/src/Texture.cpp` | `Model/Texture` (state machine: initialize, setImage, generateMipmaps for all dimensions, imagesComplete, accessors), `Model/TextureConvert` (convert), `Model/Save` (save), `Model/Tables` (validity tables, `hasAlpha`), `Model/Geometry` (mip counts and extents) | memory exhaustion (`bad_alloc`), texture moves (only copies), locale |
| `lib/src/Converter.cpp`, `StandardConverter.*` | `Model/Converter` (creation, sizes), `Model/Encode` (clamping, rounding, packing), `Model/Threads` (job queue, workers, joins) | `std::thread` creation failure; the memory model beyond the data-race freedom that is proved (jobs write disjoint bytes, the counter is atomic) |
| `lib/src/HalfFloat.*` | `Model/HalfFloat` (the instructions as their manufacturers describe them, in the default floating point environment) | 32-bit ARM flushes subnormal numbers; `glm::packHalf` is a parameter |
| `lib/src/{S3tc,Etc,Astc,Pvrtc}Converter.cpp` | block counts and sizes, gather loops, quantisation, options handed to the libraries | the compression libraries themselves; they are parameters |
| `lib/src/Save{Ktx,Dds,Pvr}.cpp` | `Model/SaveTables`, `Model/Save`, byte by byte | - |
| `lib/src/Image.cpp` | `Model/Image` (pixels, rotations, flips, colour operations, resize, normal maps), `Model/Mips3d` (generateMips3d), `Model/Adjust` (adjustImageValueRange), `Model/FloatImage` (rows as converters read them), `Model/Load` (load from a file, formats, palettes, masks), `Model/ImageStreams` (load and save with streams and memory), `Model/ImageObjects` (copies, moves, ownership of bitmaps) | the readers and writers of FreeImage |
| `tool/main.cpp` | `Model/Tool` (power-of-two sizes, `getDimension`), `Model/Directory` (`createParentDir`), `Model/ToolMain` (`loadImages`, `saveTexture`, `main`), `Model/Process` (`loadAndProcessImage`) | log output; `loadAndProcessImage` is a parameter of `main` in C43, and the one of `Model/Process` in C50; the Windows separator |
| `tool/CommandLine.cpp` | `Model/CommandLine` (the option loop, list files, `validate`); `strtoul`/`strtol` as in the C standard (64-bit `long`, "C" locale) | messages, `strtod` (a parameter), the help text |
| `lib/include/cuttlefish/*.h` | `Model/Objects` (ImageIndex, CustomMipImage, copies), colour functions in `Model/Image` | - |
| `lib/src/Shared.cpp` | `readStreamData` | FreeImage start-up |

### Assumptions on what is outside

* IEEE 754 binary32/binary64 with round-to-nearest-even, no extended precision, no fused
  operations (`Model/Num`, `Model/Dbl`); `float` values are exact rationals, NaN or infinities.
* `pow` and the double square root are parameters (`Libm`): nothing is assumed about them in the IEEE
  model unless a theorem names it.  Properties about their mathematical meaning (C29 - C31) are proved in exact real
  arithmetic (`Arith.exact`) and say so.  `UnitPow` (C64: powers of numbers from 0 to 1 are from 0 to 1 and accurate to three
  digits) and `AccuratePow` (C29, C30, C53: accurate to 50 bits) are the assumptions of the theorems with rounding; `RoundedSqrt` (C31: `sqrt` gives a
  nearest double, as IEEE 754 demands) is the one about the square root.
* FreeImage: `LawfulFI` (an allocation gives a bitmap of the requested size and type, or fails; a
  clone has the same pixels; its rotate and flip functions are the geometric ones).
* Textures only need `ImageLib.Lawful` (`Spec/Safe.lean`): a resized image has the requested size.  `imageLib_lawful` and
  `imageLib_uses` show that the modelled images are such a library, if there is memory (`EnoughMemory`) and FreeImage
  resizes with the filters that the code does not have (`CanResize`).
* `UnitConvert`, `UnitFilter` (C64) and `RangeConvert`, `RangeFilter` (C65): FreeImage's conversions to floats, and its filters
  where one of them is chosen, do not leave the range of the values.
* Where FreeImage changes colours, a property names what it needs: `AverageFilter` (C30, C50, C53: its box and linear filters
  give averages), `KeepsColors` (C50: its conversions to floats keep colours), `ReadsWell` (C52: they are near enough to the
  integers), `LoadsWell` (C50 - C52: loaded images are valid and can be counted), `LoadsSized` (C54: an image is loaded with the size that
  it is said to have), `Documented` and `PaletteColors` (C55, C56: bitmaps are what FreeImage's documentation says, and its
  palette conversions give the colours of the palette).
* Encoders are functions of their arguments (determinism); `ThreadBlind` for PVRTexLib.
* `CodecSizes`: block encoders return one block; PVRTexLib returns a surface of the size that the definition of
  the format gives, for PVRTC1 when width and height are powers of two. (The code ignores the result of
  `Transcode`: if it fails, as for other sizes in PVRTC1, the uncompressed pixels become the data.)
* FreeImage's memory streams read as files of the C library do (C57); a reader or writer is a program whose next call depends
  only on the results of the calls before.
* Streams: a device accepts a prefix of what is written and then fails for good.
* `Fits` (`Spec/Surface.lean`): a surface fits the 32-bit counters of the code.  Where a property is
  false beyond it, a theorem `Cnn_fails_...` shows it.

## Where the code does not meet a property

Each of these is a theorem with a concrete witness unless marked (read).

* C02, C03, C14, C15, C19, C20: 32-bit size and offset arithmetic wraps on surfaces of 2^32 bytes and more.
* C07: a `setImage` that is rejected after the slot was reset loses the previous image.
* C08: 3D textures with several levels allocate the full depth on every level, so `imagesComplete` can
  never be true without `generateMipmaps`; a `generateMipmaps` failing half way is reported complete.
* C10: `convert`, then `setImage`, then `generateMipmaps` indexes outside the stored images; two more.
* C11: a custom mip image that cannot be resized aborts generation after levels were replaced.
* C12: the `Once` replacement of the last level of one face or layer leaks into the next chain.
* C17: UNorm is not always the nearest value: the product is rounded to float before rounding to integer.
* C18: out-of-range and NaN channels are undefined behaviour for 32-bit integer formats.
* C20, C21: 1D textures with several rows do not read back.
* C23: an error when a file is closed is not reported.
* C27: swizzles of 3-channel images lose alpha in between; a filled alpha (1) cannot be expressed by one swizzle.
* C28: `setPixel` on UInt16 images with `convertGrayscale` converts through `int16`; on sRGB grey images
  the grey value is overwritten; out-of-range values are undefined because the clamp follows the cast.
* C29: `linearToSRGB` decreases by 2.9e-8 at its threshold, the two functions do not undo each other next
  to the thresholds, and an 8-bit sRGB image loses dark values when it is made linear and back.
* C30: `resize` of an sRGB image goes through a linear image of the same format, so dark 8-bit values become
  0; the box filter counts pixels in 32 bits; the 3D reduction writes through null if a slice cannot be
  allocated.
* C31: with large heights the squares overflow and the normal is (0, 0, 0).  The theorems with rounding (`_partial`) are for
  height factors up to 2^64 and red values up to 2^32 in size.
* C32: an image of 3-channel 5-bit origin that has got an alpha channel loses it: alpha 1 becomes 0.
* C34: negative indices wrap and index outside the image list (`-a -1 x`); after `-I` with a short list a cube
  face writes outside it; custom mips of 3D textures at level 32 and above shift by too much; an empty
  argument vector is read.  Huge indices throw an exception nobody catches (modelled as `abort`).
* C35: `--rotate ""` is taken as 0; multiples of 90 that do not fit a `long` are rejected.
* C33: a cube map with a custom mip for a layer that does not exist is accepted.
* C37: with `hardware_concurrency() = 0` the ASTC pool pops an empty list; a context that could not be allocated is
  used, and is put into the pool.  (read) `cacheSize` is a dynamically initialised constant, so a texture converted
  by a static initialiser of another file may see 0.
* C39: a regular file in the place of a directory counts as an existing directory.
* C41: assignment of `CustomMipImage` drops the replacement mode.
* C42, C46: `A4R4G4B4` is said to have no alpha; KTX types of BGRA8/ABGR8 and signed R8G8; DDS code of R4G4.
* C47: `grayscale` changes integer images that are already grey (5 becomes 4): the luminance weights do not add up to
  exactly one in doubles, and integer formats drop the fraction.
* C48: converting a float image that holds a NaN to a normalised integer format is undefined behaviour (the NaN is
  rounded and cast); FreeImage refuses these conversions, so the library's own loop is used.
* C43: the tool ignores the result of `generateMipmaps`: custom mips with different replacement modes in one level
  of a 3D texture make it read surfaces that do not exist.  (read) `-i x -d 3` is accepted but always fails.
* (read) `CommandLine`: the type check of `-f` depends on option order; a second unknown format is ignored; levels
  and depths are cut to 32 bits (`-M 4294967297` is level 1); names in custom mip lists keep trailing blanks.
* (read) `EtcConverter` reads uninitialised pixels of partial blocks for signed formats; `convert` never checks minimum sizes;
  `SaveDds` tests `Dim3D` twice and never `Cube` for the complex flag; `save(fileName)` truncates the file
  before it reports `Unsupported`.
* C49: `-f` with BC6H, B10G11R11_UFloat or E5B9G9R9_UFloat sets the type to ufloat even if `-t` was given before, so
  `-t float -f BC6H` gives unsigned floats (`C49_fails_order`). A `-f` with an unknown name is accepted and ignored if
  a format was given before (`C49_fails_format`). (Read:) an empty list of images leaves its kind behind, so that
  `-I array empty.txt -i f` gives an array texture (excluded in `Opt.Args`). A file name that looks like a number, a face or a replacement
  word is taken for the optional argument in front of it (excluded in `Opt.Args`), and a file named `-h` asks for help.
* C50: the mip levels of a normal map that are given as images of their own are resized to the size of the level before
  it is turned, so that they do not fit if the images are turned by a quarter and the level is not square
  (`C50_fails_turned`). (Read:) the results of the methods that return a `bool` are ignored, so an image that could not be
  flipped is used as it is; the flips are applied after the normal map is made, so its directions are not flipped.
* C51: the tool exits with code 0 for a 1D texture of an image with several rows, and the KTX file cannot be read
  (`C51_fails_rows`, from C20).
* C52: an opaque image of 16-bit colours (RGB5, RGB565) is transparent in a UInt or Int texture: alpha 1 becomes 0
  (`C52_fails_alpha`, from C32); the other opaque formats get the largest value.
* C53: a custom mip image is stored in its own colour space, and `generateMips3d` then reads its colours as if they were in
  the colour space of the texture (`C53_fails_space`).
* C54: a custom mip image for a layer of a cube array that does not exist is accepted and dropped, because the layer is
  compared with the number of faces (`C54_fails_layer`); after a custom image with `once` on the last level of one face, the
  last level of the next face is made from the image of the first one (`C54_fails_once`, from C12).
* C55: a gray file of 1 or 4 bits is refused although it can be shown (`C55_fails_bits`); a gray file whose ramp starts with
  white is loaded as its negative (`C55_fails_white`); the transparency table of a gray file is dropped
  (`C55_fails_alpha`).
* C56: `blueMask()` is the mask of green (Image.cpp:746; `C56_fails_blue`); the shifts of the colours of 8-bit channels are 0,
  because the mask is compared with the index of a byte (Image.cpp:750-770; `C56_fails_shift`).
* C57: `readIStream` returns the number of bytes where FreeImage expects the number of items, so a reader that checks the
  number of items of more than one byte refuses good files (`C57_fails_items`); after a read that meets the end of the
  stream, the stream stays failed and cannot be positioned, so a file that is shorter than the longest signature that is
  looked for cannot be loaded (`C57_fails_end`); the size of data in memory is cut to 32 bits (`C57_fails_large`).
* C58: `writeOStream` always reports success, so `save` returns true on a full disk (`C58_fails_full`); it counts bytes
  instead of items (`C58_fails_items`).
* C60 (`C60_fails_nan`, `C60_fails_large_number`, `C60_fails_size`, `C43_fails_mixed`, `C34_fails_…`): a NaN pixel of a
  floating point image is converted to an integer for the unsigned normalised and integer formats; 2^32 in a texture of
  32-bit integers likewise; the size of a surface of 65536 x 65536 pixels wraps around and saving reads outside of it;
  different replacement modes for the slices of a level of a 3D texture. The remaining conditions of C60 are stated in
  terms of the command line, the sizes and the numbers in the pixels. The methods of images that the texture calls to make
  mip levels are total in the model of textures; C47 and following treat their definedness.

* **C61** (`C61_mask_s3tc_partial`): the ISPC encoder for BC7 and the encoders for BC1 without alpha, BC2 and BC3 are not
  told about the colour mask. The documentation only says that the mask "may be used". sRGB images are compressed with
  `ASTCENC_PRF_LDR`, not with the sRGB profile of the library.
