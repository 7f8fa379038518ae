{"id": "C01", "title": "Accepted formats can always be converted", "statement": "For every build configuration, Texture::isFormatValid(format, type) is true exactly when convert() has an encoder for that pair, so convert() on a texture whose images are complete and whose colour space is allowed returns true, and never fails for lack of an encoder.", "quantifier": "all build configurations (S3TC/ETC/ASTC/PVRTC on or off), all formats, all types, all complete textures", "why_tests_cant": "Two independent 63x6 tables live in different files; tests touch a handful of pairs and one build configuration.", "anchors": ["lib/src/Texture.cpp:Texture::isFormatValid", "lib/src/Texture.cpp:Texture::convert", "lib/src/Converter.cpp:createConverter"]}
{"id": "C02", "title": "Format/file-type support query predicts the save result", "statement": "For a converted texture and a stream that never fails, save(stream, fileType) returns Success exactly when isFormatValid(format(), type(), fileType) is true, Unsupported exactly when the file type is known but that query is false, and UnknownFormat exactly when the file type is Auto.", "quantifier": "all formats, types, colour spaces, file types, dimensions, array-ness and sizes reachable through convert()", "why_tests_cant": "The query and the writers use separate switch statements that also depend on colour space; the product space is thousands of cases.", "anchors": ["lib/src/Texture.cpp:Texture::isFormatValid", "lib/src/SaveKtx.cpp:saveKtx", "lib/src/SaveDds.cpp:saveDds", "lib/src/SavePvr.cpp:savePvr"]}
{"id": "C03", "title": "Surface size law", "statement": "After convert(), dataSize(face, mip, depth) of every surface equals ceil(width(mip)/blockWidth) * ceil(height(mip)/blockHeight) * blockSize of the format; surfaces in PVRTC1, whose sizes must be powers of two, have at least two blocks in each direction.", "quantifier": "all formats, all image sizes, all mips, depths and faces", "why_tests_cant": "Sizes are unbounded 32-bit values; the converter buffers are computed independently of the block tables.", "anchors": ["lib/src/StandardConverter.h:StandardConverter", "lib/src/S3tcConverter.cpp:S3tcConverter", "lib/src/EtcConverter.cpp:EtcConverter", "lib/src/AstcConverter.cpp:AstcConverter", "lib/src/Texture.cpp:Texture::blockSize", "lib/src/Texture.cpp:Texture::dataSize"]}
{"id": "C04", "title": "Length of the mip chain", "statement": "maxMipmapLevels(dimension, w, h, d) is the number of levels obtained by repeatedly halving (rounding down, not below 1) until every mipped extent is 1: the last level is 1x1(x1) and no earlier level is. Depth only counts for 3D textures.", "quantifier": "all dimensions and all non-zero 32-bit sizes", "why_tests_cant": "The function is bit arithmetic on 2^96 inputs per dimension.", "anchors": ["lib/src/Texture.cpp:Texture::maxMipmapLevels", "lib/src/Texture.cpp:clz"]}
{"id": "C05", "title": "Extents of each mip level", "statement": "For a valid texture and a level below mipLevelCount(), width/height(level) is the base extent halved level times rounding down, at least 1; depth(level) does the same for 3D textures and is constant (at least 1) otherwise; out-of-range levels and invalid textures report 0. Consecutive levels never grow.", "quantifier": "all textures reachable by API calls, all levels", "why_tests_cant": "Levels and sizes are unbounded 32-bit values and the texture state depends on the call history.", "anchors": ["lib/src/Texture.cpp:Texture::width", "lib/src/Texture.cpp:Texture::height", "lib/src/Texture.cpp:Texture::depth"]}
{"id": "C06", "title": "initialize() contract", "statement": "initialize() succeeds exactly when width and height are non-zero and, for 3D, depth is non-zero. On success mipLevelCount() = min(max(requested,1), maxMipmapLevels), faceCount() is 6 exactly for cube maps, no image is set and the texture is not converted. On failure the texture becomes invalid. The previous state never matters.", "quantifier": "all argument tuples including allMipLevels, all previous states", "why_tests_cant": "All 32-bit argument combinations and every prior history.", "anchors": ["lib/src/Texture.cpp:Texture::initialize", "lib/src/Texture.cpp:Texture::reset"]}
{"id": "C07", "title": "Image slots behave like a map", "statement": "setImage() succeeds exactly when the slot (face, mip, depth) exists, the image size equals the size of the level and the image can be represented; after success getImage() on that slot returns that image in RGBAF and the texture's colour space until the slot is overwritten; other slots never change; a rejected call changes nothing.", "quantifier": "all histories of initialize/setImage/getImage/reset calls with any arguments", "why_tests_cant": "Must hold for every sequence of calls, not for sampled sequences.", "anchors": ["lib/src/Texture.cpp:Texture::setImage", "lib/src/Texture.cpp:Texture::getImage"]}
{"id": "C08", "title": "imagesComplete() means every addressable image is present", "statement": "imagesComplete() returns true exactly when getImage() is valid for every face, every level below mipLevelCount() and every depth below depth(level).", "quantifier": "all textures reachable by API calls", "why_tests_cant": "Depends on the storage shape produced by every possible history.", "anchors": ["lib/src/Texture.cpp:Texture::imagesComplete", "lib/src/Texture.cpp:Texture::initialize"]}
{"id": "C09", "title": "convert() contract and failure atomicity", "statement": "convert() succeeds exactly when all images are present, the format/type pair is valid and sRGB textures use a format with native sRGB. A failing convert() leaves the texture unchanged. A successful one records format, type, alpha and mask, provides data for every surface and consumes all images, so an immediate second convert() fails.", "quantifier": "all reachable textures, all argument tuples, any thread count", "why_tests_cant": "Ranges over every history and argument combination.", "anchors": ["lib/src/Texture.cpp:Texture::convert", "lib/src/Texture.cpp:Texture::converted", "lib/src/Converter.cpp:Converter::convert"]}
{"id": "C10", "title": "No out-of-bounds access through the Texture API", "statement": "Whatever sequence of public calls is made with whatever arguments, no call reads or writes outside the texture's storage.", "quantifier": "all histories of public Texture calls", "why_tests_cant": "Memory safety over all call sequences; a test sees one sequence.", "anchors": ["lib/src/Texture.cpp:Texture::getImage", "lib/src/Texture.cpp:Texture::dataSize", "lib/src/Texture.cpp:Texture::generateMipmaps", "lib/src/Texture.cpp:Texture::initialize"]}
{"id": "C11", "title": "generateMipmaps() completes the texture", "statement": "If every level-0 image is present and the custom images are valid, generateMipmaps() on a 1D/2D/cube texture returns true, sets mipLevelCount() to min(max(requested,1), maxMipmapLevels), leaves level-0 images untouched and fills every slot of every level with an image of that level's size, so imagesComplete() holds. For 3D it does so exactly when at each level custom images are given for all slices or none with one replacement mode.", "quantifier": "all dimensions, sizes, array lengths, filters, requested level counts and custom mip maps", "why_tests_cant": "Unbounded sizes, levels, array lengths and arbitrary custom image maps.", "anchors": ["lib/src/Texture.cpp:Texture::generateMipmaps"]}
{"id": "C12", "title": "Custom mip images only affect their own chain", "statement": "Without custom images each generated level is the resize of the previous level of the same face and layer. A custom image replaces exactly its own slot; with Continue the following levels derive from it, with Once they derive from the image that would have been generated. Other faces and array layers are unaffected.", "quantifier": "all custom mip maps, faces, layers, level counts", "why_tests_cant": "The effect depends on the whole map of custom images and iteration state carried across loops.", "anchors": ["lib/src/Texture.cpp:Texture::generateMipmaps", "lib/include/cuttlefish/Texture.h:MipReplacement"]}
{"id": "C13", "title": "Conversion result is independent of thread count and schedule", "statement": "For every number of threads and every interleaving of the workers, convert() terminates and produces the same bytes as the single-threaded run.", "quantifier": "all thread counts, all interleavings, all images", "why_tests_cant": "The number of interleavings is astronomically large; tests exercise a few.", "anchors": ["lib/src/Converter.cpp:Converter::convert"]}
{"id": "C14", "title": "Every block is encoded exactly once, without data races", "statement": "In every interleaving each job (block or batch) is processed exactly once by exactly one worker, all are finished when convert() returns, and no two jobs write the same byte.", "quantifier": "all thread counts, all interleavings, all job grids", "why_tests_cant": "Races show up only in rare schedules.", "anchors": ["lib/src/Converter.cpp:Converter::convert", "lib/src/StandardConverter.h:process", "lib/src/S3tcConverter.cpp:S3tcConverter::process"]}
{"id": "C15", "title": "Uncompressed surfaces are row-major and complete", "statement": "For an uncompressed format the converted surface contains, at texel index y*width+x, the encoding of pixel (x, y) and nothing else: every byte is written exactly once and no byte outside the surface is written.", "quantifier": "all image sizes, all uncompressed formats, all images", "why_tests_cant": "Batches of 32 texels cross row ends in every possible way as sizes vary.", "anchors": ["lib/src/StandardConverter.h:UNormConverter::process", "lib/src/StandardConverter.cpp"]}
{"id": "C16", "title": "Packed formats keep every channel", "statement": "For every uncompressed format the bits of each texel decode to exactly the format's channels in the order of its name: in packed words the first named channel is in the most significant bits, in formats of whole-byte channels it comes first in memory; no channel overlaps another and all bits are covered.", "quantifier": "all channel values, all packed formats", "why_tests_cant": "2^16..2^32 words per format.", "anchors": ["lib/src/StandardConverter.cpp:R5G6B5Converter::process", "lib/src/StandardConverter.cpp:A2R10G10B10UNormConverter::process"]}
{"id": "C17", "title": "Normalised quantisation is the nearest representable value", "statement": "Converting a non-NaN channel to UNorm/SNorm of n bits clamps to the range and stores a value whose decoding is nearest to the clamped input (error at most half a step); it is monotone, and any value that is already representable is stored exactly.", "quantifier": "all real channel values (including infinities), all bit widths used", "why_tests_cant": "Continuum of inputs.", "anchors": ["lib/src/StandardConverter.h:UNormConverter", "lib/src/StandardConverter.h:SNormConverter", "lib/src/Shared.h:clamp"]}
{"id": "C18", "title": "Integer formats saturate", "statement": "Converting a finite or infinite channel to an 8-, 16- or 32-bit (or packed 10/2-bit) integer format stores the nearest integer in range; values out of range saturate at the limits and never invoke undefined conversions.", "quantifier": "all channel values, all integer formats", "why_tests_cant": "Continuum of inputs; boundary cases at 2^31 and 2^32 are easy to miss.", "anchors": ["lib/src/StandardConverter.h:IntConverter", "lib/src/StandardConverter.cpp:A2R10G10B10UIntConverter::process"]}
{"id": "C19", "title": "Block encoders see the right texels", "statement": "For every block-compressed format, block (bx, by) is encoded from the texels (bx*bw+i, by*bh+j) with coordinates clamped to the image edge (or cropped, for ETC), and is stored at index by*blocksPerRow+bx; every block is written once and in bounds.", "quantifier": "all image sizes, all block shapes, all blocks", "why_tests_cant": "Partial edge blocks arise for every residue of the size modulo the block shape.", "anchors": ["lib/src/S3tcConverter.cpp:S3tcConverter::process", "lib/src/AstcConverter.cpp:AstcConverter::process", "lib/src/EtcConverter.cpp:EtcConverter::process"]}
{"id": "C20", "title": "KTX files can be read back", "statement": "Parsing the bytes written by save(KTX) according to the KTX 1.1 layout returns the texture's dimensions, array length, face count, level count and exactly the bytes of each surface; each level's size field matches the bytes that follow.", "quantifier": "all converted textures", "why_tests_cant": "Sizes, level counts and formats are unbounded; offsets of later levels depend on all earlier ones.", "anchors": ["lib/src/SaveKtx.cpp:saveKtx"]}
{"id": "C21", "title": "DDS files can be read back", "statement": "Parsing the bytes written by save(DDS) according to the DDS/DX10 layout returns the texture's dimensions, array length, cube flag, level count and exactly the bytes of each surface.", "quantifier": "all converted textures", "why_tests_cant": "Same as for KTX.", "anchors": ["lib/src/SaveDds.cpp:saveDds"]}
{"id": "C22", "title": "PVR files can be read back", "statement": "Parsing the bytes written by save(PVR) according to the PVR3 layout returns the texture's dimensions, array length, face count, level count and exactly the bytes of each surface; the metadata block has exactly the announced size.", "quantifier": "all converted textures", "why_tests_cant": "Same as for KTX.", "anchors": ["lib/src/SavePvr.cpp:savePvr"]}
{"id": "C23", "title": "Output failures are reported", "statement": "If the output stream fails at any point, save() returns WriteError and the bytes accepted so far are a prefix of the complete file; save() returns Success only if the complete file was accepted.", "quantifier": "all textures, all file types, every failure point of the stream", "why_tests_cant": "A crash point exists after every byte; tests use a good stream.", "anchors": ["lib/src/SaveKtx.cpp:saveKtx", "lib/src/SaveDds.cpp:saveDds", "lib/src/SavePvr.cpp:savePvr", "lib/src/Shared.h:write"]}
{"id": "C24", "title": "File type deduction", "statement": "fileType(name) is DDS, KTX or PVR exactly when the name ends with .dds, .ktx or .pvr ignoring ASCII case, and Auto otherwise.", "quantifier": "all file names", "why_tests_cant": "All strings.", "anchors": ["lib/src/Texture.cpp:Texture::fileType"]}
{"id": "C25", "title": "save() result classification", "statement": "save() on a texture that is not converted returns Invalid and writes nothing; on a converted one an unknown file type gives UnknownFormat; saving never changes the texture; saving to a byte vector returns the same bytes as saving to a stream and leaves the vector alone on failure.", "quantifier": "all textures, file types and streams", "why_tests_cant": "All states.", "anchors": ["lib/src/Texture.cpp:Texture::save", "lib/src/Shared.cpp:readStreamData"]}
{"id": "C26", "title": "Rotations and flips are the geometric ones", "statement": "rotate(CW90) moves pixel (x,y) of a w x h image to (h-1-y, x), and the other angles are its powers (CW90 = CCW270, CW180 = CCW180, CW270 = CCW90); flipHorizontal maps x to w-1-x and flipVertical y to h-1-y. Hence four quarter turns and two equal flips are the identity and no pixel is lost or duplicated.", "quantifier": "all image sizes and contents, all angles, all sequences of these operations", "why_tests_cant": "All sizes and all compositions.", "anchors": ["lib/src/Image.cpp:Image::rotate", "lib/src/Image.cpp:Image::flipHorizontal", "lib/src/Image.cpp:Image::flipVertical"]}
{"id": "C27", "title": "Swizzle semantics", "statement": "swizzle(r,g,b,a) puts the selected source channel into each destination channel, None giving 0 (1 for alpha), for every pixel; two swizzles compose to one and the identity swizzle changes nothing.", "quantifier": "all channel selections, images and sequences of swizzles", "why_tests_cant": "625 selections and all images; in-place update must not read overwritten channels.", "anchors": ["lib/src/Image.cpp:Image::swizzle"]}
{"id": "C28", "title": "Pixel access is a checked array", "statement": "getPixel/setPixel return false exactly for coordinates outside the image and then change nothing; setPixel changes only the addressed pixel; reading back a pixel returns the written colour quantised to the format.", "quantifier": "all images, formats, coordinates and colours", "why_tests_cant": "All sizes, coordinates and colours.", "anchors": ["lib/src/Image.cpp:Image::getPixel", "lib/src/Image.cpp:Image::setPixel"]}
{"id": "C29", "title": "sRGB and linear conversions are inverse and monotone", "statement": "sRGBToLinear and linearToSRGB are strictly increasing on [0,1], map 0 to 0 and 1 to 1 and undo each other; changing an image's colour space twice returns the original colours, and alpha is never changed.", "quantifier": "all real channel values in [0,1]", "why_tests_cant": "Continuum; the two branch thresholds are rounded decimals.", "anchors": ["lib/include/cuttlefish/Color.h:sRGBToLinear", "lib/include/cuttlefish/Color.h:linearToSRGB", "lib/src/Image.cpp:Image::changeColorSpace"]}
{"id": "C30", "title": "Resizing averages", "statement": "The built-in box and linear resize (and the 3D mip reduction) never divide by zero, read only pixels inside the source, and give each output channel a value between the minimum and maximum of the source pixels; constant images stay constant.", "quantifier": "all source and destination sizes, all images, both filters", "why_tests_cant": "All size ratios; empty filter windows would only occur for particular ratios.", "anchors": ["lib/src/Image.cpp:Image::resize", "lib/src/Texture.cpp:generateMips3d"]}
{"id": "C31", "title": "Normal map generation is safe and normalised", "statement": "createNormalMap reads only pixels inside the image for every size and wrap option, including 1-pixel-wide images; every produced normal has unit length and positive z (before mapping to [0,1]); a constant height map gives the straight-up normal everywhere.", "quantifier": "all image sizes, heights, options and contents", "why_tests_cant": "All sizes and border/wrap combinations.", "anchors": ["lib/src/Image.cpp:Image::createNormalMap"]}
{"id": "C32", "title": "Value range adjustment", "statement": "adjustImageValueRange maps [0,1] integer-source images onto [-1,1] for SNorm and onto the full signed/unsigned integer range of the source format for Int/UInt, and leaves all other combinations unchanged; composed with conversion to the same bit width the source integers are recovered exactly.", "quantifier": "all source formats, types and channel values", "why_tests_cant": "All source values and format pairs.", "anchors": ["lib/src/Texture.cpp:Texture::adjustImageValueRange"]}
{"id": "C33", "title": "A successful command line is a valid job", "statement": "If command line parsing succeeds then there is at least one input image, an output name, a known format, a file type that is resolved and supports the format/type, an sRGB output only for native sRGB formats, an image count that fits the texture kind (6 per cube), and only custom mips inside the texture.", "quantifier": "all argument vectors", "why_tests_cant": "All argument lists.", "anchors": ["tool/CommandLine.cpp:CommandLine::parse", "tool/CommandLine.cpp:validate"]}
{"id": "C34", "title": "Command line parsing is memory safe", "statement": "Parsing any argument vector terminates and never reads past the arguments or writes outside the image list.", "quantifier": "all argument vectors and list files", "why_tests_cant": "All argument lists, including hostile numbers.", "anchors": ["tool/CommandLine.cpp:CommandLine::parse", "tool/CommandLine.cpp:readIndex", "tool/CommandLine.cpp:readCustomMipList"]}
{"id": "C35", "title": "Rotation option", "statement": "The rotate option accepts exactly the multiples of 90 degrees and rotates by that angle modulo a full turn, clockwise for positive values.", "quantifier": "all integers", "why_tests_cant": "All integers.", "anchors": ["tool/CommandLine.cpp:CommandLine::parse"]}
{"id": "C36", "title": "Power-of-two sizing", "statement": "nextpo2 yields the smallest power of two not below the size and nearestpo2 the closest power of two (the lower on ties), for all sizes from 1 to 2^31.", "quantifier": "all 32-bit sizes", "why_tests_cant": "2^31 inputs, bit tricks.", "anchors": ["tool/main.cpp:nextPO2", "tool/main.cpp:nearestPO2", "tool/main.cpp:getDimension"]}
{"id": "C37", "title": "ASTC encoder contexts are never shared", "statement": "For every interleaving of worker creation and destruction, a compression context is owned by at most one worker at a time, is only reused with an identical configuration, is never used after being freed nor freed twice, and the pool never exceeds its limit.", "quantifier": "all histories of concurrent converters", "why_tests_cant": "All histories; sharing needs a specific interleaving.", "anchors": ["lib/src/AstcConverter.cpp:AstcContextManager"]}
{"id": "C38", "title": "Streams are read completely", "statement": "Loading from a stream delivers exactly the bytes of the stream, whether or not the stream is seekable and however the reads are split.", "quantifier": "all stream contents and lengths", "why_tests_cant": "All lengths including chunk boundaries.", "anchors": ["lib/src/Shared.cpp:readStreamData"]}
{"id": "C39", "title": "Output directory creation", "statement": "Creating the parent directory of an output path creates every missing ancestor directory in order and nothing else, stops at the first failure, and reports success exactly when all ancestors exist afterwards.", "quantifier": "all paths and file system states", "why_tests_cant": "All paths.", "anchors": ["tool/main.cpp:createParentDir"]}
{"id": "C40", "title": "Image index keys are consistent", "statement": "Two image indices compare equal exactly when face, level and depth are equal, and equal indices hash equally, so a custom mip map holds at most one image per slot and looks up the right one.", "quantifier": "all index pairs", "why_tests_cant": "All pairs.", "anchors": ["lib/include/cuttlefish/Texture.h:ImageIndex", "lib/include/cuttlefish/Texture.h:ImageIndexHash"]}
{"id": "C41", "title": "Copies of custom mip images are faithful", "statement": "Copying, moving or assigning a custom mip image preserves the referenced image and the replacement mode, and an owning copy does not refer to the source object.", "quantifier": "all objects and all sequences of copies, moves and assignments", "why_tests_cant": "All aliasing patterns.", "anchors": ["lib/src/Texture.cpp:Texture::CustomMipImage"]}
{"id": "C42", "title": "Alpha query matches the formats", "statement": "hasAlpha(format) is true exactly for the formats that store an alpha channel.", "quantifier": "all formats", "why_tests_cant": "Whole table; used for the alpha mode written to files.", "anchors": ["lib/src/Texture.cpp:Texture::hasAlpha"]}
{"id": "C43", "title": "The tool reports success only if the texture was written", "statement": "The tool exits with 0 only if a texture with the requested format was completely written to the output file; a failing write is retried once after creating the directory, when requested, and nothing is created on other errors.", "quantifier": "all parsed command lines, image loading outcomes and file system behaviours", "why_tests_cant": "Crash points and error combinations.", "anchors": ["tool/main.cpp:saveTexture", "tool/main.cpp:main"]}
{"id": "C44", "title": "Texture assignment copies the whole state", "statement": "After copy construction or copy assignment both textures answer every query identically, and later changes to one never change the other; self assignment changes nothing; assigning an invalid texture invalidates the target.", "quantifier": "all states and all later histories of both objects", "why_tests_cant": "All histories on two objects.", "anchors": ["lib/src/Texture.cpp:Texture::operator="]}
{"id": "C45", "title": "Compression libraries get correctly quantised texels", "statement": "For every block of every compressed surface, the compression library is handed the texels of that block in order, each channel the format uses converted to the nearest 8-bit value (or half float, or left as is for ETC and ASTC), with the options that belong to the format, quality, colour space and colour mask; a PVRTC surface is made from the whole image in the same way; the explicit alpha of BC2 is the nearest 4-bit value of each texel in texel order.", "quantifier": "all block formats, all images, all blocks, all pixel values", "why_tests_cant": "Ranges over all float values of all texels; encoder output is lossy so tests cannot compare it exactly.", "anchors": ["lib/src/S3tcConverter.cpp:compressBlock", "lib/src/S3tcConverter.cpp:packBc2Alpha", "lib/src/EtcConverter.cpp:EtcConverter::process", "lib/src/AstcConverter.cpp:AstcConverter::process", "lib/src/PvrtcConverter.cpp:PvrtcConverter::process"]}
{"id": "C46", "title": "Format codes of saved files describe the data", "statement": "The format codes in the header of a saved KTX, DDS or PVR file describe the stored data: a reader that follows the published meaning of the codes finds each channel of each texel in the bits the converter put it in, with its type (normalised, integer, float, signed or not) and colour space; for compressed formats the code names the format, and the alpha mode of a DDS file tells how the texture's alpha is meant.", "quantifier": "all converted textures, all format, type and colour space combinations, all file types", "why_tests_cant": "Hundreds of table entries per file type, each tested only by an application that draws the texture; a wrong code is invisible to size and round trip tests.", "anchors": ["lib/src/SaveKtx.cpp:getFormatInfo", "lib/src/SaveDds.cpp:getDdsFormat", "lib/src/SavePvr.cpp:getPixelFormat", "lib/src/SavePvr.cpp:getChannelType"]}
{"id": "C47", "title": "Pre-multiplied alpha and grayscale", "statement": "Pre-multiplying alpha multiplies the colour channels of every pixel by its alpha in linear light, also in sRGB images, never changes alpha and never changes an image without alpha. Converting to grayscale sets the three channels of every pixel to the luminance 0.2126 R + 0.7152 G + 0.0722 B of the linear channels, keeps alpha, and leaves images that are already grey as they are.", "quantifier": "all image formats, sizes, colour spaces and pixel values", "why_tests_cant": "Ranges over all pixel values; the sRGB curve and the quantisation of the formats interact, and tests sample a few colours.", "anchors": ["lib/src/Image.cpp:Image::preMultiplyAlpha", "lib/src/Image.cpp:Image::grayscale", "lib/include/cuttlefish/Color.h:toGrayscale"]}
{"id": "C48", "title": "Conversion between image formats", "statement": "Converting an image to another format keeps its size and colour space and gives pixels of the new format; to its own format it is a copy. Where the library converts itself every colour becomes the nearest one of the new format, or, for formats with one brightness channel when asked for, the luminance of the colour in linear light. Floating point colours are never limited to [0, 1] on the way to another floating point format, and 8 and 16 bit images survive the conversion to floats and back unchanged.", "quantifier": "all pairs of formats, image sizes, colour spaces and pixel values, whether or not FreeImage performs the conversion", "why_tests_cant": "17 x 16 pairs of formats with all their pixel values; which code performs a conversion depends on the pair, the colour space and on what FreeImage supports.", "anchors": ["lib/src/Image.cpp:Image::convert", "lib/src/Image.cpp:setPixelImpl", "lib/src/Image.cpp:setPixelNoGrayscaleImpl", "lib/src/Image.cpp:needFloatConvertFallback"]}
{"id": "C49", "title": "Options mean what the help text says", "statement": "A command line that is written as the help text describes - any of the names of an option, words in any letter case, optional arguments given or left out, list files with any spacing - is accepted exactly if no option is refused and nothing is missing, and the job then has the settings that the options give from left to right: sizes and filters, mips, custom mip images, rotation, swizzle and the alpha it implies, colour space, format and type, names of input images by index and cube face, the output file and its type. An unknown option is never accepted.", "quantifier": "all lists of options with all their arguments, all contents of list files, all names of files that cannot be taken for optional arguments", "why_tests_cant": "28 options with numbers, words and texts as arguments, in all orders and numbers; whether an argument belongs to an option depends on what follows it.", "anchors": ["tool/CommandLine.cpp:CommandLine::parse", "tool/CommandLine.cpp:readIndex", "tool/CommandLine.cpp:readSize", "tool/CommandLine.cpp:readCustomMipList", "tool/CommandLine.cpp:readImageList", "tool/CommandLine.cpp:printHelp", "lib/src/Texture.cpp:Texture::fileType"]}
{"id": "C50", "title": "Input images become what the job asks for", "statement": "Every input image of a job of the tool is turned into an image with the size of its mip level (turned if the image is turned by a quarter), in the colour space of the texture and in a floating point format; all images of a job have the size that is asked for with the first one. Every pixel is found where the rotation and the flips move it, with the colour that the options give: the colour space of the texture, grayscale, chosen channels, pre-multiplied alpha and the range of the type, in this order; if the image is resized, from colours between those of the input. Processing is always defined, and gives an image unless memory runs out.", "quantifier": "all images of all formats and sizes, all options of the job, all mip levels, all lists of images and custom mips", "why_tests_cant": "The steps depend on each other (size before rotation, colour space before blending, range after everything) and on all options, formats and sizes together.", "anchors": ["tool/main.cpp:loadAndProcessImage", "tool/main.cpp:loadImages", "lib/src/Image.cpp:adjustImageValueRange"]}
{"id": "C51", "title": "Every input image of the tool is found in its place in the file", "statement": "If the tool exits with code 0, a reader of the container format (KTX, DDS or PVR) finds, for every input image, a surface at level 0 of the array layer, cube face or slice that belongs to the position of the image in the command line or list file, and its bytes are the encoding, in the requested format and type, of exactly that image. No image is lost, exchanged with another one or put into the wrong face or layer.", "quantifier": "all command lines, all numbers of images, all four kinds of texture and four dimensions, all formats and types, all results of loading the images, all file systems", "why_tests_cant": "The composition of loading, placing, mipmap generation, conversion and three different file layouts has unboundedly many sizes, image counts and options; tests look at a few files.", "anchors": ["tool/main.cpp:loadImages", "tool/main.cpp:saveTexture", "tool/main.cpp:main", "lib/src/Texture.cpp:Texture::setImage", "lib/src/Texture.cpp:Texture::generateMipmaps", "lib/src/Texture.cpp:Texture::convert", "lib/src/SaveKtx.cpp:saveKtx", "lib/src/SaveDds.cpp:saveDds", "lib/src/SavePvr.cpp:savePvr"]}
{"id": "C52", "title": "Images of integers are stored without loss", "statement": "If the tool exits with code 0 for a job that does not change colours, every input image of integers (8 or 16 bits per channel, 16-bit colours, gray) that has the size of the texture is found in the file without loss: for every pixel and every channel that the texture format stores with enough bits, a reader of the container finds at the layer, face and slice of the image, at the place where the rotation and the flips move the pixel, exactly the integer of the input (the same fraction of the largest value for normalised types, the same integer for unsigned types, the integer minus half the range for signed types). Opaque images stay opaque.", "quantifier": "all command lines that keep colours, all image counts, sizes and pixel values, all formats with one field per channel, the three container formats, all rotations and flips", "why_tests_cant": "Loss would come from rounding of single pixel values in one of six steps in single precision, or from an exchange of rows, channels or images for certain sizes or counts; tests look at few values, sizes and formats.", "anchors": ["tool/main.cpp:loadAndProcessImage", "lib/src/Image.cpp:adjustImageValueRange", "lib/src/Image.cpp:Image::convert", "lib/src/StandardConverter.h", "lib/src/Texture.cpp:Texture::convert", "lib/src/SaveKtx.cpp:saveKtx", "lib/src/SaveDds.cpp:saveDds", "lib/src/SavePvr.cpp:savePvr"]}
{"id": "C53", "title": "Mip levels are made of the colours of the images they come from", "statement": "After generateMipmaps() with the box or the linear filter, every level of every face and layer is an image of floats in the colour space of the texture, with the size of its level, and every channel of every pixel is between the smallest and the largest value of this channel in the level-0 image of the same face and layer and in the custom images of this chain up to the level (for 3D textures: in all slices). A texture of one colour has levels of this colour.", "quantifier": "all histories of calls, all textures (1D, 2D, cube, arrays, 3D), sizes and numbers of levels, all colours, all custom images, both colour spaces", "why_tests_cant": "A chain has up to 32 levels, each computed from the one before with windows that depend on the size; an error shows for single sizes (odd numbers, one pixel) and adds up over levels.", "anchors": ["lib/src/Texture.cpp:Texture::generateMipmaps", "lib/src/Texture.cpp:generateMips3d", "lib/src/Image.cpp:Image::resize", "lib/src/Texture.cpp:Texture::setImage"]}
{"id": "C54", "title": "Every mip level and every custom mip image is found in the file", "statement": "If the tool exits with code 0, a reader of the written container finds, for every input image, at every mip level the encoding of that level of a chain that starts with the input image and uses the custom mip images of its face and layer (for a 3D texture: for every slice of every level, with the reduction of all slices); and every custom mip image of the command line is found at its own level, layer or slice and face, resized to the size of the level.", "quantifier": "all command lines with exit code 0, all numbers and sizes of images, all custom mip images and their replacement modes, texture types, levels, layers, faces and slices, the three container formats", "why_tests_cant": "The number of (level, layer, face, slice) places is unbounded and every combination of custom images changes the chain of later levels; a wrong index or a chain that continues from the wrong image shows only for certain combinations of counts and options.", "anchors": ["tool/main.cpp:loadImages", "tool/main.cpp:createTexture", "tool/main.cpp:saveTexture", "tool/CommandLine.cpp:CommandLine::parse", "lib/src/Texture.cpp:Texture::generateMipmaps", "lib/src/Texture.cpp:Texture::setImage"]}
{"id": "C55", "title": "A loaded image shows the picture of its file", "statement": "If Image::load() returns true for a file that FreeImage can read, the image has the size of the picture in the file and the requested colour space, every pixel has the colour the file gives it at this place (through its palette and transparency table, its masks or its number type), rows counted from the top, and the format of the image can hold the pixels. load() returns false exactly if the type of the file is unknown, FreeImage cannot load it or there is no image format for its pixels.", "quantifier": "all files, all bitmap types, bit depths, palettes, transparency tables, masks and pixels that FreeImage documents, all sizes, both colour spaces", "why_tests_cant": "There are thirteen pixel types times bit depths, palettes and transparency tables of 256 free entries; sample files cover a few of the combinations, and one that nobody has a file for is loaded with wrong colours.", "anchors": ["lib/src/Image.cpp:Image::load", "lib/src/Image.cpp:Image::Impl::create", "lib/src/Image.cpp:getFormat"]}
{"id": "C56", "title": "Masks and shifts address the channels of 16- and 32-bit pixels", "statement": "For an image of a 16-bit or 32-bit format, the word of a pixel, masked with redMask() and shifted by redShift() (and so for green, blue and alpha), is the channel that getPixel() reads, out of the mask shifted in the same way; formats without alpha have the alpha mask 0.", "quantifier": "all loaded images of the formats RGB5, RGB565 and RGBA8, all pixels, all four channels", "why_tests_cant": "A mask of a wrong channel agrees with the right one on all gray pixels and on every image whose two channels are equal; only a statement about all pixels tells them apart.", "anchors": ["lib/src/Image.cpp:Image::Impl::create", "lib/src/Image.cpp:Image::redMask", "lib/src/Image.cpp:Image::blueMask", "lib/src/Image.cpp:Image::redShift"]}
{"id": "C57", "title": "An image is loaded from a stream or from memory as from a file", "statement": "Image::load(stream) and Image::load(data, size) give the image that the bytes hold: the result is the one that the reader of FreeImage for these bytes gives with the functions of the C library, from the current position of the stream on, whether or not the stream can be positioned.", "quantifier": "all bytes, all positions and states of the stream, all readers (programs that read, seek and tell any number of times, depending on what they read), both colour spaces", "why_tests_cant": "A reader is an unbounded sequence of reads and seeks that depends on the content; an adapter that reports a wrong count or does not come back from the end fails only with certain readers, lengths and contents.", "anchors": ["lib/src/Image.cpp:Image::load", "lib/src/Image.cpp:readIStream", "lib/src/Image.cpp:seekIStream", "lib/src/Image.cpp:tellIStream", "lib/src/Shared.cpp:readStreamData"]}
{"id": "C58", "title": "Saving an image to a stream or to memory gives the bytes of the image file", "statement": "Image::save(stream, fileName) and Image::save(outData, fileName) return what the writer of FreeImage for the type of the name returns, and the stream or the data hold the bytes that this writer puts into a file. If the image is not valid or the name has no known type, they return false and change nothing; if not all bytes could be written, they return false.", "quantifier": "all images, names, streams (with any room and position), all writers (programs that write, seek and tell any number of times)", "why_tests_cant": "A writer may go back and patch what it wrote, any number of times, and a stream may fail at every one of the bytes; tests try a few files on a disk that is not full.", "anchors": ["lib/src/Image.cpp:Image::save", "lib/src/Image.cpp:writeOStream", "lib/src/Image.cpp:seekOStream", "lib/src/Image.cpp:tellOStream", "lib/src/Shared.cpp:readStreamData"]}
{"id": "C59", "title": "Image objects are values that own their bitmaps", "statement": "A program that constructs, loads, initializes, copies, moves, resets, converts, changes and destroys images within their lifetimes never uses a bitmap of the library after it was given back and never gives one back twice, whatever the library returns (also no memory). A copy shows what the original shows; an object shows the same until an operation names it as its target; a moved-from image is not valid. Every bitmap belongs to exactly one object, and when all objects are destroyed no bitmap is left.", "quantifier": "all sequences of operations on any number of image objects, all results of the library, failures of allocations and palette conversions at every point, self-assignment and self-move", "why_tests_cant": "The number of interleavings of copies, moves and failed allocations is unbounded; a leak or a double release on an error path is not visible in a result.", "anchors": ["lib/src/Image.cpp:Image::Impl::create", "lib/src/Image.cpp:Image::Impl::~Impl", "lib/src/Image.cpp:Image::operator=", "lib/src/Image.cpp:Image::load", "lib/src/Image.cpp:Image::initialize", "lib/src/Image.cpp:Image::reset"]}
{"id": "C60", "title": "A run of the tool has no undefined behaviour", "statement": "A run of the command line tool never reads or writes outside of an image, a surface or a list, never converts a number that does not fit and never shifts too far: it always ends with an exit code, whatever the command line, the input files, the devices and the directories do.", "quantifier": "all argument vectors, contents of list files, images, formats, types, custom mips, failures of loading, of memory, of devices and of directories, at every point", "why_tests_cant": "Undefined behaviour need not be visible in a test, and the combinations of options, sizes, values and failures are unbounded.", "anchors": ["tool/src/main.cpp:main", "tool/src/main.cpp:saveTexture", "tool/src/main.cpp:loadImages", "lib/src/Texture.cpp:Texture::convert", "lib/src/SaveKtx.cpp:saveKtx", "lib/src/SavePvr.cpp:savePvr", "lib/src/SaveDds.cpp:saveDds", "lib/src/StandardConverter.h:StandardConverter::process"]}
{"id": "C61", "title": "Quality and colour mask reach the encoders", "statement": "Converting a texture with a higher quality never asks a compression library for less effort in any respect, on exactly the same pixels; and with the encoders that can weigh channels, the channels outside the colour mask have no influence on the comparison of the colours.", "quantifier": "all textures, block formats, pairs of qualities, colour masks, colour spaces, alpha types, surfaces and blocks", "why_tests_cant": "Encoder output is lossy and its quality is not monotone for single images, so a test of the output cannot show that the options grow with the quality for all formats, nor that a channel has no weight.", "anchors": ["lib/src/S3tcConverter.cpp:getRgbcxQualityLevel", "lib/src/S3tcConverter.cpp:createBc7BlockParams", "lib/src/S3tcConverter.cpp:Bc1AConverter::compressBlock", "lib/src/EtcConverter.cpp:EtcConverter::EtcConverter", "lib/src/AstcConverter.cpp:AstcConverter::AstcConverter", "lib/src/PvrtcConverter.cpp:PvrtcConverter::process"]}
{"id": "C62", "title": "Half float formats store the nearest half float", "statement": "In a texture of a format with 16-bit float channels every channel of every texel is a half float nearest to the channel of the image (equally near: the even one, if the processor converts), with its sign; numbers from 65520 on become infinite, NaN stays NaN, numbers that are half floats are stored exactly, and the order of numbers is kept.", "quantifier": "all 2^32 channel values, all 16-bit float formats, textures, surfaces with fewer than 2^32 channels (the code counts in 32 bits) and their texels, processors with the conversion instruction, and without it library functions that round to nearest", "why_tests_cant": "There are 2^32 channel values and rounding errors show up only at ties, subnormal numbers and the ends of binades; which branch runs depends on the processor.", "anchors": ["lib/src/HalfFloat.h:packHardwareHalfFloat4", "lib/src/HalfFloat.cpp:checkHasHardwareHalfFloat", "lib/src/StandardConverter.h:HalfConverter::process"]}
{"id": "C63", "title": "Textures use image operations only where they are defined", "statement": "Whatever list of calls is made on a texture with valid images and sizes whose pixels can be counted, the texture converts, resizes and changes images only in ways that are defined (no access outside of an image, no number that does not fit), so the outcome does not depend on what an image operation would do elsewhere; every image that a texture holds has four floats in every pixel. The same holds for a whole run of the tool with its own loader.", "quantifier": "all lists of calls, textures of all dimensions and sizes below 2^32 pixels, all filters, custom mipmaps and image formats, all command lines", "why_tests_cant": "A test with valid results says nothing about reads outside of an image that happen to return something; the claim is about all sequences of calls.", "anchors": ["lib/src/Texture.cpp:Texture::setImage", "lib/src/Texture.cpp:Texture::generateMipmaps", "lib/src/Texture.cpp:generateMips3d", "lib/src/Image.cpp:Image::convert", "lib/src/Image.cpp:Image::resize", "tool/main.cpp:saveTexture"]}
{"id": "C64", "title": "Colours from 0 to 1 stay from 0 to 1", "statement": "If all images that are given to a texture have colours from 0 to 1, then after any list of calls every image that the texture holds has colours from 0 to 1 and no NaN or infinity, also generated mipmaps, slices of 3D textures and sRGB textures whose colours are converted to linear ones and back, with all rounding errors of doubles and floats. So every pixel can be stored in every format and type. The tool's steps (conversion, resize, turn, flip, swizzle, gray, alpha multiplication) keep this range too, unless it makes normal maps or a type with another range, and images of integers always have it. Assumed: `pow` is accurate to three digits and keeps the range, and FreeImage's conversion, and its filters if one of them is chosen, keep the range.", "quantifier": "all lists of calls, textures, images, sizes, filters of the library, custom mipmaps, all jobs of the tool", "why_tests_cant": "A rounding error that leaves the range by one unit in the last place shows up only for a few of the 2^128 colours and for some sizes; the casts that follow are undefined outside of the range.", "anchors": ["lib/src/Texture.cpp:Texture::generateMipmaps", "lib/src/Texture.cpp:generateMips3d", "lib/src/Image.cpp:Image::resize", "lib/src/Image.cpp:Image::changeColorSpace", "lib/src/Image.cpp:Image::grayscale", "lib/src/Image.cpp:Image::preMultiplyAlpha", "lib/include/cuttlefish/Color.h:sRGBToLinear", "tool/main.cpp:loadImages"]}
{"id": "C65", "title": "The values of a texture are in the range of its type", "statement": "If the images that the tool reads have colours from 0 to 1 (as all images of integers do), then every value of every image of the texture that it makes, all mip levels included, is a finite number in the range of the type of the texture: -1 to 1 for signed normalised values, 0 to 2^16 for unsigned and -2^15 to 2^15 for signed integers, 0 to 1 for the other types, and for normal maps -1 to 1 for types with a sign and 0 to 1 for others. So every pixel can be stored in the format of the job. A linear texture of the library keeps the values of the images that it is given in any range from 0 or a negative power of two to a power of two. All rounding errors of doubles and floats are included. Assumed: `pow` is accurate to three digits, `sqrt` is correctly rounded, FreeImage's conversion to floats and its filters, if one of them is chosen, do not leave the range; for normal maps the height is finite and at most 2^64 and the sizes can be counted with 32 bits.", "quantifier": "all jobs of the tool, all types, images, sizes, filters of the library, custom mipmaps; all lists of calls of a linear texture", "why_tests_cant": "One value outside of the range, for one of the 2^128 colours and some size, makes the cast of the encoder undefined; tests compare a few images.", "anchors": ["lib/src/Texture.cpp:Texture::adjustImageValueRange", "tool/main.cpp:loadAndProcessImage", "lib/src/Image.cpp:Image::createNormalMap", "lib/src/Image.cpp:Image::resize", "lib/src/Texture.cpp:Texture::generateMipmaps", "lib/src/Texture.cpp:generateMips3d"]}
