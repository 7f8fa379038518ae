{
 "claims": [
  {
   "property": "C01",
   "status": "proved",
   "theorems": [
    "Cuttlefish.C01_valid_iff_encoder",
    "Cuttlefish.C01_query_total",
    "Cuttlefish.C01_convert_succeeds",
    "Cuttlefish.C01_convert_rejects"
   ],
   "note": "All build configurations, all formats and types; query total on raw enumerator values; convert on complete textures succeeds exactly for valid pairs given the encoder succeeds."
  },
  {
   "property": "C02",
   "status": "partial",
   "theorems": [
    "Cuttlefish.C02_dds_pvr",
    "Cuttlefish.C02_save_result_partial",
    "Cuttlefish.C02_fails_large"
   ],
   "note": "DDS, PVR and unknown file types without any limit (C02_dds_pvr); KTX too, except uncompressed surfaces beyond the 32-bit counters (Fits), where saving reads past the data: C02_fails_large."
  },
  {
   "property": "C03",
   "status": "partial",
   "theorems": [
    "Cuttlefish.C03_surface_size_partial",
    "Cuttlefish.C03_pvrtc",
    "Cuttlefish.C03_fails_large"
   ],
   "note": "dataSize of every surface is blocks * bytes per block, for surfaces that fit the 32-bit counters (Fits); false beyond that, witness C03_fails_large. C03_pvrtc: the same for PVRTC (PVRTC1 with powers of two and at least 2x2 blocks), on the assumption that PVRTexLib returns the size that the format has."
  },
  {
   "property": "C04",
   "status": "proved",
   "theorems": [
    "Cuttlefish.C04_chain_length",
    "Cuttlefish.C04_depth_ignored"
   ],
   "note": "Chain length equals the specification (number of halvings to 1x1x1) for all 32-bit extents."
  },
  {
   "property": "C05",
   "status": "proved",
   "theorems": [
    "Cuttlefish.C05_extents",
    "Cuttlefish.C05_invalid",
    "Cuttlefish.C05_never_grows"
   ],
   "note": "Extents of every level over all safe histories."
  },
  {
   "property": "C06",
   "status": "proved",
   "theorems": [
    "Cuttlefish.C06_success_iff",
    "Cuttlefish.C06_success",
    "Cuttlefish.C06_reported",
    "Cuttlefish.C06_invalid",
    "Cuttlefish.C06_failure",
    "Cuttlefish.C06_history_irrelevant"
   ],
   "note": "initialize succeeds iff the documented argument conditions; success state, failure state, everything an invalid or new texture reports, and independence of the history."
  },
  {
   "property": "C07",
   "status": "partial",
   "theorems": [
    "Cuttlefish.C07_slots_are_a_map_partial",
    "Cuttlefish.C07_map_read_over_write",
    "Cuttlefish.C07_represent",
    "Cuttlefish.C07_rejected_call_clears_slot"
   ],
   "note": "Refinement to a map holds for histories whose calls meet SetOK; a rejected setImage destroys the previous slot content, proved as C07_rejected_call_clears_slot."
  },
  {
   "property": "C08",
   "status": "partial",
   "theorems": [
    "Cuttlefish.C08_complete_implies_present",
    "Cuttlefish.C08_complete_iff_present_partial",
    "Cuttlefish.C08_fails_for_3d_mips",
    "Cuttlefish.C08_fails_after_failed_generate"
   ],
   "note": "imagesComplete iff all images present except for 3D textures with more than one level, where the code allocates too many slots (C08_fails_for_3d_mips), and after a failed 3D generateMipmaps (C08_fails_after_failed_generate)."
  },
  {
   "property": "C09",
   "status": "proved",
   "theorems": [
    "Cuttlefish.C09_success_iff",
    "Cuttlefish.C09_failure_atomic",
    "Cuttlefish.C09_success_effect"
   ],
   "note": "convert: success condition, failure atomicity, effect on success."
  },
  {
   "property": "C10",
   "status": "partial",
   "theorems": [
    "Cuttlefish.C10_memory_safe_partial",
    "Cuttlefish.C10_safe_without_generate",
    "Cuttlefish.C10_generate_flat_safe",
    "Cuttlefish.C10_fails_generate_after_convert",
    "Cuttlefish.C10_fails_after_failed_generate",
    "Cuttlefish.C10_fails_custom_not_resizable"
   ],
   "note": "No undefined access over histories meeting SafeHist; the excluded histories are really unsafe, three witnesses proved."
  },
  {
   "property": "C11",
   "status": "partial",
   "theorems": [
    "Cuttlefish.C11_flat_partial",
    "Cuttlefish.C11_3d_partial",
    "Cuttlefish.C11_rejects",
    "Cuttlefish.C11_fails_custom_not_resizable"
   ],
   "note": "Holds for custom images that can be resized (GoodCustom); otherwise false, witness C11_fails_custom_not_resizable."
  },
  {
   "property": "C12",
   "status": "partial",
   "theorems": [
    "Cuttlefish.C12_chain_partial",
    "Cuttlefish.C12_other_chains_partial",
    "Cuttlefish.C12_chain_3d",
    "Cuttlefish.C12_fails_once_on_last_level"
   ],
   "note": "Non-3D: holds if no other chain has a Once image on its last level; otherwise false, witness C12_fails_once_on_last_level. 3D: no such restriction."
  },
  {
   "property": "C13",
   "status": "partial",
   "theorems": [
    "Cuttlefish.C13_schedule_independent_partial",
    "Cuttlefish.C13_completes_partial",
    "Cuttlefish.C13_terminates_partial"
   ],
   "note": "Every interleaving of the modelled workers gives the single-threaded result, is finite and cannot deadlock. Missing: surfaces beyond the 32-bit counters (Fits); there the claim fails, see C14_fails_large. PVRTexLib's own threads are an assumption (ThreadBlind)."
  },
  {
   "property": "C14",
   "status": "partial",
   "theorems": [
    "Cuttlefish.C14_jobs_partial",
    "Cuttlefish.C14_disjoint_partial",
    "Cuttlefish.C14_exactly_once_partial",
    "Cuttlefish.C14_fails_large"
   ],
   "note": "Exactly-once and disjoint writes in every interleaving, for every format except PVRTC (one job) and surfaces within the 32-bit counters. C14_fails_large: beyond them two jobs write the same byte."
  },
  {
   "property": "C15",
   "status": "partial",
   "theorems": [
    "Cuttlefish.C15_row_major_partial",
    "Cuttlefish.C15_defined",
    "Cuttlefish.C15_fails_large",
    "Cuttlefish.C15_fails_offsets"
   ],
   "note": "Every uncompressed surface is the row-major sequence of its encoded texels, and the encoding is defined for storable channels, for surfaces within Fits; false beyond, witnesses C15_fails_large and C15_fails_offsets."
  },
  {
   "property": "C16",
   "status": "partial",
   "theorems": [
    "Cuttlefish.C16_fields_partial",
    "Cuttlefish.C16_fields_fill",
    "Cuttlefish.C16_packed_partial"
   ],
   "note": "Fields of every texel of every format this code encodes itself; half floats in C62; for B10G11R11 and E5B9G9R9 only that the library's word is stored. Surfaces within Fits."
  },
  {
   "property": "C17",
   "status": "partial",
   "theorems": [
    "Cuttlefish.C17_unorm_partial",
    "Cuttlefish.C17_snorm_partial",
    "Cuttlefish.C17_unorm_exact",
    "Cuttlefish.C17_snorm_exact",
    "Cuttlefish.C17_unorm_mono",
    "Cuttlefish.C17_snorm_mono",
    "Cuttlefish.C17_fails_near_tie"
   ],
   "note": "Stored value within a half plus 2^(n-25) of the exact product, exact on representable values, monotone; nearest in the strict sense is false, witness C17_fails_near_tie. NaN is undefined behaviour."
  },
  {
   "property": "C18",
   "status": "partial",
   "theorems": [
    "Cuttlefish.C18_uint_partial",
    "Cuttlefish.C18_int_partial",
    "Cuttlefish.C18_uint_saturates",
    "Cuttlefish.C18_int_saturates",
    "Cuttlefish.C18_fails_uint32",
    "Cuttlefish.C18_fails_int32",
    "Cuttlefish.C18_fails_nan"
   ],
   "note": "Nearest integer with saturation at the limits, infinities included, for all channels except 32-bit ones from 2^32 (2^31) on and NaN, where the conversion is undefined: C18_fails_uint32, C18_fails_int32, C18_fails_nan."
  },
  {
   "property": "C19",
   "status": "partial",
   "theorems": [
    "Cuttlefish.C19_blocks_partial",
    "Cuttlefish.C19_block_texel",
    "Cuttlefish.C19_etc_texel",
    "Cuttlefish.C19_fails_large"
   ],
   "note": "Every block of every S3TC, ETC, EAC and ASTC surface is encoded from exactly its texels (clamped or cropped) and stored row-major, for surfaces within Fits; false beyond, witness C19_fails_large. PVRTC is encoded by its library as a whole."
  },
  {
   "property": "C20",
   "status": "partial",
   "theorems": [
    "Cuttlefish.C20_ktx_partial",
    "Cuttlefish.C20_fails_1d",
    "Cuttlefish.C20_fails_large"
   ],
   "note": "Round trip through an independent KTX 1.1 reader for every format (PVRTC1 with powers of two), dimension, array and level count, within Fits and with level sizes below 2^32; false for 1D textures with several rows (C20_fails_1d) and large surfaces (C20_fails_large)."
  },
  {
   "property": "C21",
   "status": "partial",
   "theorems": [
    "Cuttlefish.C21_dds_partial",
    "Cuttlefish.C21_fails_1d"
   ],
   "note": "Round trip through an independent DDS/DX10 reader within Fits; false for 1D textures with several rows, C21_fails_1d."
  },
  {
   "property": "C22",
   "status": "partial",
   "theorems": [
    "Cuttlefish.C22_pvr_partial"
   ],
   "note": "Round trip through an independent PVR v3 reader for every format within Fits (PVRTC1 with powers of two), with all metadata entries."
  },
  {
   "property": "C23",
   "status": "partial",
   "theorems": [
    "Cuttlefish.C23_failures_reported",
    "Cuttlefish.C23_failed_before",
    "Cuttlefish.C23_every_failure_point",
    "Cuttlefish.C23_file_partial",
    "Cuttlefish.C23_fails_file"
   ],
   "note": "Every device behaviour and failure point for streams and vectors; for files if closing the file loses nothing. C23_fails_file: an error while the ofstream is flushed in its destructor is not reported."
  },
  {
   "property": "C24",
   "status": "proved",
   "theorems": [
    "Cuttlefish.C24_file_type"
   ],
   "note": "All names (byte strings), ASCII case, C locale."
  },
  {
   "property": "C25",
   "status": "proved",
   "theorems": [
    "Cuttlefish.C25_not_converted",
    "Cuttlefish.C25_unknown_type",
    "Cuttlefish.C25_bad_name",
    "Cuttlefish.C25_vector",
    "Cuttlefish.C25_classification"
   ],
   "note": "All textures, file types, devices. Saving is a function of a const texture in the model, so it cannot change it."
  },
  {
   "property": "C26",
   "status": "proved",
   "theorems": [
    "Cuttlefish.C26_rotate",
    "Cuttlefish.C26_angles",
    "Cuttlefish.C26_flip",
    "Cuttlefish.C26_sequences",
    "Cuttlefish.C26_bijection",
    "Cuttlefish.C26_identities"
   ],
   "note": "Every angle, flip and sequence, for every image and every arithmetic meeting LawfulArith (IEEE double and exact real both proved to); FreeImage's own rotate/flip functions are assumed to be the geometric ones where the code calls them."
  },
  {
   "property": "C27",
   "status": "partial",
   "theorems": [
    "Cuttlefish.C27_swizzle",
    "Cuttlefish.C27_identity",
    "Cuttlefish.C27_compose_partial",
    "Cuttlefish.C27_fails_three_channels",
    "Cuttlefish.C27_fails_filled"
   ],
   "note": "Each swizzle and the identity for every format (RGB565 up to its quantisation). Composition for the four-channel formats and selections that do not read a filled alpha; otherwise false: C27_fails_three_channels, C27_fails_filled."
  },
  {
   "property": "C28",
   "status": "partial",
   "theorems": [
    "Cuttlefish.C28_get",
    "Cuttlefish.C28_set_outside",
    "Cuttlefish.C28_set_red_partial",
    "Cuttlefish.C28_set_undefined",
    "Cuttlefish.C28_write_back",
    "Cuttlefish.C28_set_gray_partial",
    "Cuttlefish.C28_fails_uint16",
    "Cuttlefish.C28_fails_srgb"
   ],
   "note": "Range check, only the addressed pixel, read back quantised, write back exact, for every colour whose conversion is defined; others are undefined behaviour (C28_set_undefined). False with convertGrayscale: C28_fails_uint16, C28_fails_srgb."
  },
  {
   "property": "C29",
   "status": "partial",
   "theorems": [
    "Cuttlefish.C29_to_linear",
    "Cuttlefish.C29_to_srgb_partial",
    "Cuttlefish.C29_fails_increasing",
    "Cuttlefish.C29_inverse_partial",
    "Cuttlefish.C29_fails_inverse",
    "Cuttlefish.C29_image",
    "Cuttlefish.C29_twice_partial",
    "Cuttlefish.C29_fails_8bit",
    "Cuttlefish.C29_alpha",
    "Cuttlefish.C29_rounded",
    "Cuttlefish.C29_image_rounded",
    "Cuttlefish.C29_twice_rounded",
    "Cuttlefish.C29_formats_rounded"
   ],
   "note": "In exact arithmetic the functions are those of the standard, sRGBToLinear is strictly increasing, both map 0 and 1 to themselves and undo each other outside two tiny gaps at the thresholds; changeColorSpace applies them to every pixel, and twice returns float images (gaps within 1e-7); alpha is kept in every arithmetic. With IEEE rounding and a pow accurate to 50 bits, values from 0 to 1 are converted to within 1.1e-8 and 4e-8 of the standard, float images to within 7e-8, images of every normalised format to within half a step of the format more (C29_formats_rounded), and there and back to within 2e-6 (C29_rounded, C29_image_rounded, C29_twice_rounded). False parts proved: linearToSRGB decreases at its threshold (C29_fails_increasing), the round trip fails in the gaps (C29_fails_inverse) and for 8-bit images (C29_fails_8bit)."
  },
  {
   "property": "C30",
   "status": "partial",
   "theorems": [
    "Cuttlefish.C30_linear",
    "Cuttlefish.C30_constant",
    "Cuttlefish.C30_srgb_partial",
    "Cuttlefish.C30_depth_partial",
    "Cuttlefish.C30_fails_memory",
    "Cuttlefish.C30_fails_srgb",
    "Cuttlefish.C30_fails_count",
    "Cuttlefish.C30_defined",
    "Cuttlefish.C30_rounded",
    "Cuttlefish.C30_box",
    "Cuttlefish.C30_box_constant",
    "Cuttlefish.C30_weighted",
    "Cuttlefish.C30_weighted_constant",
    "Cuttlefish.C30_depth_rounded",
    "Cuttlefish.C30_srgb_rounded",
    "Cuttlefish.C30_srgb_depth_rounded"
   ],
   "note": "In exact arithmetic: the built-in filters are defined, read only inside the source, and give averages, for linear images of every format, float sRGB images (2e-7), and the 3D reduction; constant linear images stay constant. In IEEE arithmetic: resizing a float image with any filter is defined for every image, size, colour space and number (C30_defined), and the built-in filters keep a power of two that limits the colours as a limit (C30_rounded). Images that FreeImage resizes are covered if its box and linear filters give averages (AverageFilter, AverageDoubles). With IEEE rounding the box filter, the linear filter and the 3D reduction keep the exact range of linear float images if up to 2^29 (box) or 2^24 pixels or slices are averaged (C30_box, C30_weighted, C30_depth_rounded), so constant images stay constant (C30_box_constant, C30_weighted_constant). With a pow accurate to 50 bits, sRGB float images with colours from 0 to 1 keep their range up to 1e-6 (C30_srgb_rounded, C30_srgb_depth_rounded). Missing: sRGB float images with colours outside 0 to 1 with rounding. False parts proved: 8-bit sRGB images (C30_fails_srgb), 2^32 averaged pixels divide by zero (C30_fails_count), failing allocation in the 3D reduction (C30_fails_memory)."
  },
  {
   "property": "C31",
   "status": "partial",
   "theorems": [
    "Cuttlefish.C31_reads",
    "Cuttlefish.C31_normals",
    "Cuttlefish.C31_constant",
    "Cuttlefish.C31_fails_overflow",
    "Cuttlefish.C31_unsigned_partial",
    "Cuttlefish.C31_signed_partial",
    "Cuttlefish.C31_constant_rounded"
   ],
   "note": "Computing every pixel is defined for every arithmetic, size and option (no read outside the image). Unit length, positive z, neighbours with and without wrapping and constant images are proved in exact arithmetic. With IEEE rounding and a correctly rounded sqrt: stored normals are within 1e-7 of the exact ones, signed coordinates are in [-1,1] with z > 0 and squared length within 1e-6 of 1, unsigned colours are in [0,1], and constant images give exactly the straight-up normal (any finite factor). C31_fails_overflow: with a huge height the normal is (0,0,0), so the theorems with rounding (_partial) are limited to height factors up to 2^64 and red values up to 2^32; unit length is up to rounding."
  },
  {
   "property": "C32",
   "status": "partial",
   "theorems": [
    "Cuttlefish.C32_unchanged",
    "Cuttlefish.C32_snorm",
    "Cuttlefish.C32_integers",
    "Cuttlefish.C32_source_partial",
    "Cuttlefish.C32_snorm_source",
    "Cuttlefish.C32_recover",
    "Cuttlefish.C32_fails_alpha",
    "Cuttlefish.C32_source_srgb",
    "Cuttlefish.C32_snorm_srgb"
   ],
   "note": "All types, source formats and channel values, in IEEE arithmetic: other combinations unchanged; UInt and Int give exactly the source integers (shifted to the signed range), for the library's own conversion and for FreeImage conversions within 2^-18; SNorm is 2x-1 to within 2^-23, monotone, with exact ends; converting back at 8 and 16 bits recovers the integers exactly. C32_fails_alpha: 5/6 bit origins lose alpha. sRGB grey images that FreeImage cannot convert: the same with a pow accurate to 50 bits (C32_source_srgb, C32_snorm_srgb)."
  },
  {
   "property": "C33",
   "status": "partial",
   "theorems": [
    "Cuttlefish.C33_job",
    "Cuttlefish.C33_custom_partial",
    "Cuttlefish.C33_slices",
    "Cuttlefish.C33_fails_layer"
   ],
   "note": "All argument vectors and list files: an accepted command line is a complete, consistent job (C33_job); custom mips are distinct, not for level 0, and inside the slices or layers (C33_custom_partial), complete per level for 3D (C33_slices). Missing: the number of levels is only checked when images are loaded (covered by C43), and layers of cube maps are compared with the number of faces (C33_fails_layer)."
  },
  {
   "property": "C34",
   "status": "partial",
   "theorems": [
    "Cuttlefish.C34_safe_partial",
    "Cuttlefish.C34_small",
    "Cuttlefish.C34_fails_index",
    "Cuttlefish.C34_fails_cube_index",
    "Cuttlefish.C34_fails_list",
    "Cuttlefish.C34_fails_level",
    "Cuttlefish.C34_fails_empty"
   ],
   "note": "All argument vectors and list files whose numbers are not wrapped or huge (SmallNumber), that do not combine a list with other image options (NoMix) and whose levels are below 32 (SmallLevels): parsing ends and stays in bounds (Res.ok). Missing: the rest, where the code is undefined: C34_fails_index, C34_fails_cube_index, C34_fails_list, C34_fails_level, C34_fails_empty are witnesses."
  },
  {
   "property": "C35",
   "status": "partial",
   "theorems": [
    "Cuttlefish.C35_option_partial",
    "Cuttlefish.C35_huge",
    "Cuttlefish.C35_fails_huge",
    "Cuttlefish.C35_fails_empty",
    "Cuttlefish.C35_missing"
   ],
   "note": "All integers that fit a long, in decimal: accepted exactly for multiples of 90 and the angle is right modulo a turn (C35_option_partial). Missing: multiples of 90 beyond a long are rejected (C35_huge, C35_fails_huge), and an empty argument is accepted (C35_fails_empty)."
  },
  {
   "property": "C36",
   "status": "proved",
   "theorems": [
    "Cuttlefish.C36_next",
    "Cuttlefish.C36_nearest",
    "Cuttlefish.C36_dimension",
    "Cuttlefish.C36_outside"
   ],
   "note": "All sizes from 1 to 2^31: nextPO2 is the least power of two not below the size, nearestPO2 the closest one (the lower on ties), and every size option of getDimension gives what it asks for. C36_outside: for 0 and above 2^31 the result is 0, since there is no such 32-bit size."
  },
  {
   "property": "C37",
   "status": "partial",
   "theorems": [
    "Cuttlefish.C37_exclusive_partial",
    "Cuttlefish.C37_released_partial",
    "Cuttlefish.C37_fails_cores",
    "Cuttlefish.C37_fails_memory",
    "Cuttlefish.C37_fails_memory_cached"
   ],
   "note": "The pool, the workers and the contract of the encoder library as a small-step system. For every history of creations, compressions and destructions by any number of workers: nothing undefined happens, every worker holds a live context of its own configuration that nobody else holds, pooled contexts are idle and held by nobody, the pool keeps its limit, no context is lost, and the final teardown frees everything. Needs successful allocations and a known number of cores: C37_fails_cores (0 cores: pop_back on an empty list), C37_fails_memory and C37_fails_memory_cached (a null context is used, and even pooled)."
  },
  {
   "property": "C38",
   "status": "proved",
   "theorems": [
    "Cuttlefish.C38_seekable",
    "Cuttlefish.C38_not_seekable",
    "Cuttlefish.C38_fresh"
   ],
   "note": "Seekable streams: whole content from any position; other streams: everything from the current position; fresh streams: the whole content."
  },
  {
   "property": "C39",
   "status": "proved",
   "theorems": [
    "Cuttlefish.C39_order",
    "Cuttlefish.C39_ancestors",
    "Cuttlefish.C39_effect",
    "Cuttlefish.C39_file_in_place"
   ],
   "note": "All paths and all file systems with a lawful mkdir, with the POSIX separator: ancestors in order and nothing else, stop at the first failure, success exactly when all exist. C39_file_in_place: existing means any entry, also a regular file."
  },
  {
   "property": "C40",
   "status": "proved",
   "theorems": [
    "Cuttlefish.C40_eq_iff",
    "Cuttlefish.C40_equal_hash",
    "Cuttlefish.C40_hash_range",
    "Cuttlefish.C40_constructors",
    "Cuttlefish.C40_lookup"
   ],
   "note": "Equality, hash agreement, constructors and lookup in a hash table keyed by indices, for all 32-bit fields and any bucket count."
  },
  {
   "property": "C41",
   "status": "partial",
   "theorems": [
    "Cuttlefish.C41_no_dangling",
    "Cuttlefish.C41_copy_construct",
    "Cuttlefish.C41_move_construct",
    "Cuttlefish.C41_assign_partial",
    "Cuttlefish.C41_copy_assign_source",
    "Cuttlefish.C41_independent",
    "Cuttlefish.C41_fails_assignment_drops_replacement"
   ],
   "note": "Copy and move construction give the same values and independent ownership; assignment keeps the image but drops the replacement mode, proved as C41_fails_assignment_drops_replacement."
  },
  {
   "property": "C42",
   "status": "partial",
   "theorems": [
    "Cuttlefish.C42_hasAlpha_partial",
    "Cuttlefish.C42_fails_A4R4G4B4",
    "Cuttlefish.C42_hasAlpha_sound"
   ],
   "note": "hasAlpha equals the alpha content of every format except A4R4G4B4, proved as C42_fails_A4R4G4B4."
  },
  {
   "property": "C43",
   "status": "partial",
   "theorems": [
    "Cuttlefish.C43_outcome_partial",
    "Cuttlefish.C43_success",
    "Cuttlefish.C43_untouched",
    "Cuttlefish.C43_fails_mixed"
   ],
   "note": "All command lines, image loaders, encoders and file systems in which closing loses no bytes: every defined run ends as described by Ending (C43_outcome_partial); exit 0 means a complete file of a texture with everything requested, in which every image was stored (C43_success); nothing is touched on other errors (C43_untouched). Missing: bytes lost on close (C23_fails_file), and runs that are undefined: C43_fails_mixed."
  },
  {
   "property": "C44",
   "status": "proved",
   "theorems": [
    "Cuttlefish.C44_value_semantics",
    "Cuttlefish.C44_copy",
    "Cuttlefish.C44_self",
    "Cuttlefish.C44_assign_invalid",
    "Cuttlefish.C44_independent",
    "Cuttlefish.C44_ownership"
   ],
   "note": "Value semantics of copy construction, copy assignment and self assignment over all histories of variables."
  },
  {
   "property": "C45",
   "status": "partial",
   "theorems": [
    "Cuttlefish.C45_s3tc_partial",
    "Cuttlefish.C45_etc_partial",
    "Cuttlefish.C45_astc_partial",
    "Cuttlefish.C45_pvrtc"
   ],
   "note": "For every S3TC, ETC, EAC and ASTC block: which library is called with which quantised texels and which options (levels, radii, weights, metrics, profiles, swizzles), and the explicit BC2 alpha; for surfaces within Fits. PVRTC surfaces without a size condition. The libraries and their constants are parameters."
  },
  {
   "property": "C46",
   "status": "partial",
   "theorems": [
    "Cuttlefish.C46_ktx_partial",
    "Cuttlefish.C46_dds_partial",
    "Cuttlefish.C46_pvr_partial",
    "Cuttlefish.C46_fails_ktx_bgra",
    "Cuttlefish.C46_fails_ktx_abgr",
    "Cuttlefish.C46_fails_ktx_signed",
    "Cuttlefish.C46_fails_dds_r4g4",
    "Cuttlefish.C46_fails_dds_alpha"
   ],
   "note": "Whole tables lifted to saved files, for the textures of C20-C22. False for B8G8R8A8 and A8B8G8R8 in KTX (C46_fails_ktx_bgra, C46_fails_ktx_abgr), the data type of signed R8G8 in KTX (C46_fails_ktx_signed), R4G4 in DDS (C46_fails_dds_r4g4) and the alpha mode of A4R4G4B4 (C46_fails_dds_alpha)."
  },
  {
   "property": "C47",
   "status": "partial",
   "theorems": [
    "Cuttlefish.C47_premultiply",
    "Cuttlefish.C47_without_alpha",
    "Cuttlefish.C47_alpha",
    "Cuttlefish.C47_opaque",
    "Cuttlefish.C47_bounds",
    "Cuttlefish.C47_grayscale",
    "Cuttlefish.C47_grey_between",
    "Cuttlefish.C47_grey_fixed",
    "Cuttlefish.C47_fails_integers",
    "Cuttlefish.C47_bits_unit",
    "Cuttlefish.C47_premultiply_rounded_partial",
    "Cuttlefish.C47_grayscale_rounded_partial",
    "Cuttlefish.C47_floats_defined",
    "Cuttlefish.C47_integers_rounded"
   ],
   "note": "Colours over the reals, stored in the format of the image; alpha, and images without alpha, in every lawful arithmetic including IEEE doubles. With IEEE rounding both calls are defined for images with colours from 0 to 1 and every pixel is the specified colour to within half a step of the format and 3e-7 (sRGB with a pow accurate to 50 bits); linear integer images keep a grey value or lose one (C47_integers_rounded). False in IEEE doubles for grey integer images: 5 becomes 4 (C47_fails_integers). Not proved with rounding: sRGB integer images and complex images."
  },
  {
   "property": "C48",
   "status": "partial",
   "theorems": [
    "Cuttlefish.C48_result",
    "Cuttlefish.C48_invalid",
    "Cuttlefish.C48_same",
    "Cuttlefish.C48_values",
    "Cuttlefish.C48_floats",
    "Cuttlefish.C48_round_trip",
    "Cuttlefish.C48_fails_nan",
    "Cuttlefish.C48_rounded_partial"
   ],
   "note": "Shape of the result in every lawful arithmetic; colours over the reals for all conversions the library performs itself, and with IEEE rounding for images with colours from 0 to 1 and all formats but integers and complex numbers (C48_rounded_partial: within half a step of the new format and 3e-7); floats to floats and the round trip of 8 and 16 bit images in IEEE doubles. FreeImage conversions are assumptions (size, pixels of the format; for the round trip, to within 2^-18). A NaN converted to a normalised format is undefined behaviour (C48_fails_nan)."
  },
  {
   "property": "C49",
   "status": "partial",
   "theorems": [
    "Cuttlefish.C49_settings_partial",
    "Cuttlefish.C49_accepted",
    "Cuttlefish.C49_sizes",
    "Cuttlefish.C49_unknown",
    "Cuttlefish.C49_fails_order",
    "Cuttlefish.C49_fails_format"
   ],
   "note": "Proved for all lists of options: which command lines are accepted, their settings, the sizes, unknown options. Two options do not mean what they say: -f overrides an earlier -t for three formats (C49_fails_order), an unknown -f after another one is ignored (C49_fails_format)."
  },
  {
   "property": "C50",
   "status": "partial",
   "theorems": [
    "Cuttlefish.C50_job_partial",
    "Cuttlefish.C50_defined",
    "Cuttlefish.C50_loads",
    "Cuttlefish.C50_pixels",
    "Cuttlefish.C50_resized",
    "Cuttlefish.C50_normals",
    "Cuttlefish.C50_range",
    "Cuttlefish.C50_fails_turned"
   ],
   "note": "Sizes, colour spaces and formats of all images of a job are proved in every lawful arithmetic, that processing is defined and gives an image with IEEE arithmetic, the pixels in exact arithmetic, with and without resizing. Missing: the size of smaller mip levels of normal maps that are turned by a quarter, which is wrong (C50_fails_turned); the pixels of normal maps that are resized."
  },
  {
   "property": "C51",
   "status": "partial",
   "theorems": [
    "Cuttlefish.C51_file_partial",
    "Cuttlefish.C51_fails_rows"
   ],
   "note": "Every input image is found at its layer, face and slice, as the encoding of the image loaded from its path. Conditions: the texture fits the 32-bit fields, 1D textures in KTX and DDS have one row (C51_fails_rows: the code accepts others), PVRTC1 textures are powers of two, custom mips of 3D textures are complete (C43_fails_mixed)."
  },
  {
   "property": "C52",
   "status": "partial",
   "theorems": [
    "Cuttlefish.C52_lossless_partial",
    "Cuttlefish.C52_fails_alpha"
   ],
   "note": "From input file to texture file, in IEEE single precision, for UNorm, UInt and Int: every channel of every pixel is found exactly. Conditions: as for C51 (the texture fits the containers, custom mips of 3D textures complete), sizes given as numbers are positive ints, FreeImage converts integers to floats to within 2^-18 (1/255 for 5 and 6 bit channels). C52_fails_alpha: opaque 16-bit colours get alpha 0 in integer textures."
  },
  {
   "property": "C53",
   "status": "partial",
   "theorems": [
    "Cuttlefish.C53_flat_partial",
    "Cuttlefish.C53_volume_partial",
    "Cuttlefish.C53_constant_partial",
    "Cuttlefish.C53_flat_rounded",
    "Cuttlefish.C53_volume_rounded",
    "Cuttlefish.C53_constant_rounded",
    "Cuttlefish.C53_flat_srgb_rounded",
    "Cuttlefish.C53_volume_srgb_rounded",
    "Cuttlefish.C53_fails_space"
   ],
   "note": "For every history of calls. In exact arithmetic: sizes, format, colour space and range of colours of every level, exactly for linear textures and up to 2e-7 per level (3D: 4e-7) for sRGB ones. With IEEE rounding (C53_flat_rounded, C53_volume_rounded, C53_constant_rounded): linear textures of finite floats keep the exact range, and constant textures stay constant to the last bit; custom images up to 2^24 pixels, up to 2^24 slices. Conditions: custom images are floats in the colour space of the texture (C53_fails_space: others are stored unconverted), no Once image on the last level of another chain (C12), level-0 images with less than 2^32 pixels, memory for 3D slices (C30_fails_memory); where FreeImage resizes, it gives averages. sRGB textures of colours from 0 to 1 keep their range up to 1e-6 per level (3D: 2e-6) with rounding and a pow accurate to 50 bits (C53_flat_srgb_rounded, C53_volume_srgb_rounded). Missing: sRGB textures with other colours with rounding."
  },
  {
   "property": "C54",
   "status": "partial",
   "theorems": [
    "Cuttlefish.C54_levels_partial",
    "Cuttlefish.C54_volume_partial",
    "Cuttlefish.C54_custom_partial",
    "Cuttlefish.C54_fails_layer",
    "Cuttlefish.C54_fails_once"
   ],
   "note": "Every level of every input image or slice, and every custom image, at its place in the file. Conditions: those of C51; custom images can be resized; no Once image on the last level of another chain (C54_fails_once); custom images of layers that exist (C54_fails_layer: others are accepted and dropped)."
  },
  {
   "property": "C55",
   "status": "partial",
   "theorems": [
    "Cuttlefish.C55_shows_partial",
    "Cuttlefish.C55_proper",
    "Cuttlefish.C55_refuses",
    "Cuttlefish.C55_fails_bits",
    "Cuttlefish.C55_fails_white",
    "Cuttlefish.C55_fails_alpha"
   ],
   "note": "Every pixel of every loadable file, properness of whatever is loaded, and exactly when load refuses. Not met by the code for gray files of less than 8 bits, gray files that start with white and gray files with a transparency table (C55_fails_bits, C55_fails_white, C55_fails_alpha). Inks (CMYK) are not described."
  },
  {
   "property": "C56",
   "status": "partial",
   "theorems": [
    "Cuttlefish.C56_words_partial",
    "Cuttlefish.C56_alpha",
    "Cuttlefish.C56_fails_blue",
    "Cuttlefish.C56_fails_shift"
   ],
   "note": "Red and green of 16-bit formats and alpha. Not met by the code for blue (C56_fails_blue) and for the colours of 32-bit pixels (C56_fails_shift)."
  },
  {
   "property": "C57",
   "status": "partial",
   "theorems": [
    "Cuttlefish.C57_memory",
    "Cuttlefish.C57_stream_partial",
    "Cuttlefish.C57_unseekable",
    "Cuttlefish.C57_fails_items",
    "Cuttlefish.C57_fails_end",
    "Cuttlefish.C57_fails_large"
   ],
   "note": "Memory below 4 GiB and streams that cannot be positioned: all readers. Other streams: readers that do not depend on the count of items and do not seek after the end (Plain). Not met by the code otherwise (C57_fails_items, C57_fails_end, C57_fails_large)."
  },
  {
   "property": "C58",
   "status": "partial",
   "theorems": [
    "Cuttlefish.C58_stream_partial",
    "Cuttlefish.C58_vector_partial",
    "Cuttlefish.C58_refuses",
    "Cuttlefish.C58_fails_full",
    "Cuttlefish.C58_fails_items"
   ],
   "note": "Writers that do not depend on the count of items (PlainWriter), and streams that are still good afterwards. Not met by the code for streams that fail (C58_fails_full) and for item counts (C58_fails_items)."
  },
  {
   "property": "C59",
   "status": "proved",
   "theorems": [
    "Cuttlefish.C59_values",
    "Cuttlefish.C59_owned",
    "Cuttlefish.C59_independent",
    "Cuttlefish.C59_copy"
   ],
   "note": "All histories; the copy theorem assumes that palette conversions give bitmaps without palettes (PaletteColors) and that the clone succeeds."
  },
  {
   "property": "C60",
   "status": "partial",
   "theorems": [
    "Cuttlefish.C60_encode",
    "Cuttlefish.C60_save",
    "Cuttlefish.C60_run_partial",
    "Cuttlefish.C60_loader_partial",
    "Cuttlefish.C60_fails_nan",
    "Cuttlefish.C60_fails_large_number",
    "Cuttlefish.C60_fails_size",
    "Cuttlefish.C60_images_partial"
   ],
   "note": "Encoding and saving for all formats; the whole tool with and without the modelled loader. Needed conditions: those of C34, sizes that fit 32 bits, storable numbers, one replacement mode per level of 3D textures; each is shown necessary by a C60_fails/C43_fails/C34_fails theorem. Image methods called by the texture are total in the texture model; C63 shows that they are called only where they are defined. C60_images_partial is about the tool with the modelled class Image and IEEE arithmetic, for all types and for normal maps (C65): the only conditions left are on the external libraries, argument limits and sizes, and equal replacement modes of custom 3D mips, which are not normal maps."
  },
  {
   "property": "C61",
   "status": "partial",
   "theorems": [
    "Cuttlefish.C61_quality",
    "Cuttlefish.C61_mask_astc",
    "Cuttlefish.C61_mask_s3tc_partial"
   ],
   "note": "Quality: all block formats, all surfaces within Fits. Mask: ASTC exactly, BC1 with transparent texels exactly, BC7 with bc7enc; the other encoders have no weights or ignore the mask."
  },
  {
   "property": "C62",
   "status": "proved",
   "theorems": [
    "Cuttlefish.C62_halves",
    "Cuttlefish.C62_hardware",
    "Cuttlefish.C62_exact",
    "Cuttlefish.C62_order"
   ],
   "note": "For all channel values and all half float formats: on processors with the instruction, or if glm::packHalf rounds to nearest (library assumption in the theorem). Surfaces within the 32-bit counters (Fits), as the property says."
  },
  {
   "property": "C63",
   "status": "partial",
   "theorems": [
    "Cuttlefish.C63_images_partial",
    "Cuttlefish.C63_stored_partial",
    "Cuttlefish.C63_tool_partial",
    "Cuttlefish.C63_fails_bad"
   ],
   "note": "Proved for all lists of calls and for the tool. Conditions: FreeImage gets its memory (C30_fails_memory), images are valid, sizes count below 2^32 pixels, 3D depth below 2^31, custom images have a float format; needed by C63_fails_bad and the C30/C47 counterexamples."
  },
  {
   "property": "C64",
   "status": "proved",
   "theorems": [
    "Cuttlefish.C64_stored",
    "Cuttlefish.C64_storable",
    "Cuttlefish.C64_loaded",
    "Cuttlefish.C64_job",
    "Cuttlefish.C64_integers",
    "Cuttlefish.C64_fails_bright"
   ],
   "note": "For the calls, the jobs of the tool and images of integers. C64_fails_bright: an input above 1 stays above 1."
  },
  {
   "property": "C65",
   "status": "proved",
   "theorems": [
    "Cuttlefish.C65_stored",
    "Cuttlefish.C65_loaded",
    "Cuttlefish.C65_job",
    "Cuttlefish.C65_storable"
   ],
   "note": "For all jobs of the tool (types, normal maps, mipmaps, custom mips) and for linear textures of the library. sRGB textures only have unsigned normalised values (C33), which C64 covers."
  }
 ]
}