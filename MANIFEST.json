{
 "claims": [
  {
   "property": "C01",
   "status": "proved",
   "theorems": [
    "Verif.C01_scan",
    "Verif.C01_chunk_invariance"
   ],
   "note": ""
  },
  {
   "property": "C02",
   "status": "proved",
   "theorems": [
    "Verif.C02_chunk_invariance_errors"
   ],
   "note": ""
  },
  {
   "property": "C03",
   "status": "proved",
   "theorems": [
    "Verif.C03_sound"
   ],
   "note": ""
  },
  {
   "property": "C04",
   "status": "proved",
   "theorems": [
    "Verif.C04_C10_segmentation"
   ],
   "note": ""
  },
  {
   "property": "C05",
   "status": "proved",
   "theorems": [
    "Verif.C05_clean"
   ],
   "note": ""
  },
  {
   "property": "C06",
   "status": "proved",
   "theorems": [
    "Verif.C06_noise"
   ],
   "note": ""
  },
  {
   "property": "C07",
   "status": "proved",
   "theorems": [
    "Verif.C07_complete"
   ],
   "note": ""
  },
  {
   "property": "C08",
   "status": "proved",
   "theorems": [
    "Verif.C08_bounded"
   ],
   "note": ""
  },
  {
   "property": "C09",
   "status": "proved",
   "theorems": [
    "Verif.C09_total"
   ],
   "note": "loops are modelled with partial_fixpoint, so termination is a theorem"
  },
  {
   "property": "C10",
   "status": "proved",
   "theorems": [
    "Verif.C04_C10_segmentation"
   ],
   "note": ""
  },
  {
   "property": "C11",
   "status": "proved",
   "theorems": [
    "Verif.C11_crc_remainder",
    "Verif.C11_crc_bitwise"
   ],
   "note": ""
  },
  {
   "property": "C12",
   "status": "proved",
   "theorems": [
    "Verif.C12_burst",
    "Verif.C12_burst_mcrc",
    "Verif.C12_burst_not_returned"
   ],
   "note": ""
  },
  {
   "property": "C13",
   "status": "proved",
   "theorems": [
    "Verif.C13_odd",
    "Verif.C13_two",
    "Verif.C13_up_to_three"
   ],
   "note": ""
  },
  {
   "property": "C14",
   "status": "proved",
   "theorems": [
    "Verif.C14_getbitu",
    "Verif.C14_getbitu_bits"
   ],
   "note": ""
  },
  {
   "property": "C15",
   "status": "proved",
   "theorems": [
    "Verif.C15_getbits",
    "Verif.C15_getbitS",
    "Verif.C15_getbits_range",
    "Verif.C15_getbitS_range",
    "Verif.C15_getbits_roundtrip",
    "Verif.C15_getbitS_roundtrip"
   ],
   "note": ""
  },
  {
   "property": "C16",
   "status": "proved",
   "theorems": [
    "Verif.C16_revbitu",
    "Verif.C16_revbitu_involutive",
    "Verif.C16_revbitu_popcount"
   ],
   "note": ""
  },
  {
   "property": "C20",
   "status": "proved",
   "theorems": [
    "Verif.C20_msm",
    "Verif.C20_msm_only",
    "Verif.C20_getSubset"
   ],
   "note": ""
  },
  {
   "property": "C28",
   "status": "proved",
   "theorems": [
    "Verif.C28_table10",
    "Verif.C28_cover10",
    "Verif.C28_mono10",
    "Verif.C28_tlock4"
   ],
   "note": ""
  },
  {
   "property": "C29",
   "status": "proved",
   "theorems": [
    "Verif.C29_signals"
   ],
   "note": ""
  },
  {
   "property": "C30",
   "status": "proved",
   "theorems": [
    "Verif.C30_iff",
    "Verif.C30_roundtrip",
    "Verif.C30_subDecode",
    "Verif.C30_range"
   ],
   "note": "all ephemeris messages except 1044, which is C31"
  },
  {
   "property": "C31",
   "status": "partial",
   "theorems": [
    "Verif.C31_violated",
    "Verif.C31_violated_wellformed",
    "Verif.C31_partial"
   ],
   "note": "the code violates the property: decoding 1044 fails for every buffer (offset advanced by 8 instead of 10 bits)"
  },
  {
   "property": "C32",
   "status": "proved",
   "theorems": [
    "Verif.C32_scale",
    "Verif.C32_type",
    "Verif.C32_injective",
    "Verif.C32_exact"
   ],
   "note": ""
  },
  {
   "property": "C33",
   "status": "proved",
   "theorems": [
    "Verif.C33_bare",
    "Verif.C33_scaled",
    "Verif.C33_length",
    "Verif.C33_C37_bare_iff",
    "Verif.C33_C37_scaled_iff",
    "Verif.C33_C37_encodable"
   ],
   "note": ""
  },
  {
   "property": "C34",
   "status": "partial",
   "theorems": [
    "Verif.C34_bare",
    "Verif.C34_partial",
    "Verif.C34_C35_violated",
    "Verif.C33_C37_bare_iff",
    "Verif.C33_C37_scaled_iff"
   ],
   "note": "the code violates the property for empty strings (scaled mode rejects the message); proved for all others"
  },
  {
   "property": "C35",
   "status": "partial",
   "theorems": [
    "Verif.C35_partial",
    "Verif.C35_invalid",
    "Verif.C35_bare",
    "Verif.C34_C35_violated"
   ],
   "note": "the code violates the property for the empty text; proved for all others"
  },
  {
   "property": "C36",
   "status": "partial",
   "theorems": [
    "Verif.C36_partial",
    "Verif.C36_violated"
   ],
   "note": "the code violates the property for messages without announcements; proved for all others"
  },
  {
   "property": "C37",
   "status": "proved",
   "theorems": [
    "Verif.C37_bias",
    "Verif.C33_C37_encodable"
   ],
   "note": ""
  },
  {
   "property": "C38",
   "status": "partial",
   "theorems": [
    "Verif.C38_iff",
    "Verif.C38_violated",
    "Verif.C38_partial"
   ],
   "note": "the code violates the property for empty or non-UTF-8 texts; exact condition proved"
  },
  {
   "property": "C21",
   "status": "proved",
   "theorems": [
    "Verif.C21_roundtrip",
    "Verif.C21_carried",
    "Verif.C21_C22_bare_iff",
    "Verif.C21_C22_sound",
    "Verif.C21_injective"
   ],
   "note": ""
  },
  {
   "property": "C22",
   "status": "partial",
   "theorems": [
    "Verif.C22_partial",
    "Verif.C22_violated",
    "Verif.C21_C22_bare_iff"
   ],
   "note": "the code violates the property: the length estimate for MSM2 and MSM3 counts one bit too many per cell, so messages with 8 or more cells are never decoded; proved for MSM1 and for MSM2/MSM3 whenever byte rounding hides the error"
  },
  {
   "property": "C23",
   "status": "partial",
   "theorems": [
    "Verif.C23_partial",
    "Verif.C23_violated"
   ],
   "note": "the code violates the property: the length check rejects every valid frame with an empty satellite mask"
  },
  {
   "property": "C24",
   "status": "proved",
   "theorems": [
    "Verif.C24_scaled",
    "Verif.C24_roundtrip",
    "Verif.C24_entries",
    "Verif.C24_C27_scaled_iff",
    "Verif.get2_table"
   ],
   "note": ""
  },
  {
   "property": "C25",
   "status": "partial",
   "theorems": [
    "Verif.C25_partial",
    "Verif.C25_exact",
    "Verif.C25_violated",
    "Verif.C25_violated_general"
   ],
   "note": "the code violates the property for MSM3: one cell with invalid pseudorange suppresses phase, lock time and half-cycle flag of this and all later cells of the satellite; proved otherwise (for MSM2/MSM3 within the limits of C22); the exact result is proved in all cases"
  },
  {
   "property": "C26",
   "status": "proved",
   "theorems": [
    "Verif.C26_markers",
    "Verif.C26_suppress"
   ],
   "note": ""
  },
  {
   "property": "C27",
   "status": "proved",
   "theorems": [
    "Verif.C27_reject",
    "Verif.C24_C27_scaled_iff"
   ],
   "note": ""
  },
  {
   "property": "C17",
   "status": "proved",
   "theorems": [
    "Verif.C17_strategy",
    "Verif.C17_typed"
   ],
   "note": ""
  },
  {
   "property": "C18",
   "status": "proved",
   "theorems": [
    "Verif.C18_step",
    "Verif.C18_run",
    "Verif.C18_bounds"
   ],
   "note": ""
  },
  {
   "property": "C19",
   "status": "proved",
   "theorems": [
    "Verif.C19_disjoint",
    "Verif.C19_family",
    "Verif.C19_order"
   ],
   "note": ""
  },
  {
   "property": "C39",
   "status": "proved",
   "theorems": [
    "Verif.C39_step",
    "Verif.C39_order",
    "Verif.C39_run"
   ],
   "note": ""
  },
  {
   "property": "C45",
   "status": "proved",
   "theorems": [
    "Verif.C45_files",
    "Verif.C45_all"
   ],
   "note": "float.__repr__ is assumed to yield JSON numbers (hypothesis hfr)"
  },
  {
   "property": "C46",
   "status": "proved",
   "theorems": [
    "Verif.C46_distinct",
    "Verif.C46_only",
    "Verif.C46_total",
    "Verif.C46_named"
   ],
   "note": ""
  },
  {
   "property": "C55",
   "status": "partial",
   "theorems": [
    "Verif.C55_partial",
    "Verif.C55_violated"
   ],
   "note": "the code violates the property for NavIC (L5_Flag and S_Flag are not in the JSON object); proved for all other fields"
  },
  {
   "property": "C56",
   "status": "proved",
   "theorems": [
    "Verif.C56_codes",
    "Verif.rnxLit_eq"
   ],
   "note": ""
  },
  {
   "property": "C40",
   "status": "proved",
   "theorems": [
    "Verif.C40_rows",
    "Verif.C40_shape",
    "Verif.C40_decoded"
   ],
   "note": ""
  },
  {
   "property": "C41",
   "status": "partial",
   "theorems": [
    "Verif.C41_partial",
    "Verif.C41_violated"
   ],
   "note": "the code violates the property: satellites beyond MAX_SATS of a constellation (BeiDou 38-63 and others) have no column and are dropped silently; proved for all satellites that have a column"
  },
  {
   "property": "C42",
   "status": "proved",
   "theorems": [
    "Verif.C42_conv",
    "Verif.C42_injective"
   ],
   "note": ""
  },
  {
   "property": "C43",
   "status": "proved",
   "theorems": [
    "Verif.C43_units",
    "Verif.C43_carrier",
    "Verif.C43_ambiguous"
   ],
   "note": ""
  },
  {
   "property": "C44",
   "status": "proved",
   "theorems": [
    "Verif.C44_names",
    "Verif.C44_files",
    "Verif.C44_faults"
   ],
   "note": ""
  },
  {
   "property": "C58",
   "status": "partial",
   "theorems": [
    "Verif.C58_partial",
    "Verif.C58_violated"
   ],
   "note": "the code violates the property for MARGO: if an output file cannot be created the row is dropped and the print counts as a success; proved for JSON"
  },
  {
   "property": "C57",
   "status": "proved",
   "theorems": [
    "Verif.C57_number",
    "Verif.C57_row",
    "Verif.C57_header",
    "Verif.C57_file"
   ],
   "note": ""
  },
  {
   "property": "C48",
   "status": "partial",
   "theorems": [
    "Verif.C48_partial",
    "Verif.C48_violated"
   ],
   "note": "the code violates the property: main tests printing_errors twice and never parsing_errors, so a file with parsing errors is reported as finished without errors; proved for decoding and printing errors"
  },
  {
   "property": "C50",
   "status": "proved",
   "theorems": [
    "Verif.C50_released",
    "Verif.C50_no_assert"
   ],
   "note": ""
  },
  {
   "property": "C51",
   "status": "proved",
   "theorems": [
    "Verif.C51_whole",
    "Verif.C51_chunk_size"
   ],
   "note": ""
  },
  {
   "property": "C54",
   "status": "proved",
   "theorems": [
    "Verif.C54_arguments",
    "Verif.C54_directory",
    "Verif.C54_not_integer",
    "Verif.C54_exist"
   ],
   "note": ""
  },
  {
   "property": "C52",
   "status": "partial",
   "theorems": [
    "Verif.C52_partial",
    "Verif.C52_file_partial",
    "Verif.C52_violated"
   ],
   "note": "Holds for the contents the decoders accept; QZSS ephemerides, 1013 without announcements and MSM2/MSM3 with a wrong length estimate are refused (C31, C36, C22)."
  },
  {
   "property": "C59",
   "status": "partial",
   "theorems": [
    "Verif.C59_partial"
   ],
   "note": "proved for the contents that scaled decoding delivers completely; missing are the contents refused because of the program errors recorded under C22, C25, C31, C34, C35, C36 and the signals without code of C27"
  },
  {
   "property": "C60",
   "status": "proved",
   "theorems": [
    "Verif.C60_noise",
    "Verif.C60_noise_scaled"
   ],
   "note": ""
  },
  {
   "property": "C53",
   "status": "partial",
   "theorems": [
    "Verif.C53_reflexive",
    "Verif.C53_partial",
    "Verif.C53_sound",
    "Verif.C53_exact",
    "Verif.C53_violated",
    "Verif.C53_ephemeris_reflexive",
    "Verif.C53_base_reflexive",
    "Verif.C53_integer_ephemeris",
    "Verif.C53_infinite",
    "Verif.C53_raises",
    "Verif.C53_item"
   ],
   "note": "violated by the code: because of math.fabs(B > f_tolerance) negative references are compared with the absolute tolerance (two GPS ephemerides with af2 codes -120 and -119 compare equal). Proved: reflexivity; equal integers, texts and shapes; relative tolerance for references that are not between -1 and minus the tolerance. Floats are exact rationals."
  },
  {
   "property": "C47",
   "status": "proved",
   "theorems": [
    "Verif.C47_available",
    "Verif.C47_init",
    "Verif.C47_update",
    "Verif.C47_effective",
    "Verif.C47_merge",
    "Verif.C47_default_raises",
    "Verif.C47_main"
   ],
   "note": "Stated over the contents of the parser, with interpolation; C71 connects them with the text of the files."
  },
  {
   "property": "C49",
   "status": "partial",
   "theorems": [
    "Verif.C49_frame",
    "Verif.C49_partial",
    "Verif.C49_directory",
    "Verif.C49_overwritten",
    "Verif.C49_violated"
   ],
   "note": "The full claim is false: x.a and x.b share the work folder x-JSON and the products of the first are deleted (C49_violated, C49_overwritten in general). Proved: conversion touches nothing outside of the work folder; products survive later files whose work folder is apart; this holds for distinct files with one extension in one directory."
  },
  {
   "property": "C61",
   "status": "proved",
   "theorems": [
    "Verif.C61_batch",
    "Verif.C61_directory"
   ],
   "note": "Source contents are a function of the path and are not changed by the conversion; '..' in paths is not interpreted."
  },
  {
   "property": "C62",
   "status": "proved",
   "theorems": [
    "Verif.C62_file",
    "Verif.C62_run",
    "Verif.C62_controls",
    "Verif.C62_channel"
   ],
   "note": "For modes other than the known ones no converter is made (C54/C50). Needs that no GLONASS channel is -2848; C62_channel shows the condition is necessary."
  },
  {
   "property": "C63",
   "status": "proved",
   "theorems": [
    "Verif.C63_files",
    "Verif.C63_unique"
   ],
   "note": "The objects are those delivered by the decoders (characterised by C17, C22-C37); needs a positive carrier per GLONASS channel. For times outside of the valid range the written time is not specified."
  },
  {
   "property": "C64",
   "status": "proved",
   "theorems": [
    "Verif.C64_margo"
   ],
   "note": ""
  },
  {
   "property": "C65",
   "status": "proved",
   "theorems": [
    "Verif.C65_jargo"
   ],
   "note": ""
  },
  {
   "property": "C66",
   "status": "proved",
   "theorems": [
    "Verif.C66_double",
    "Verif.C66_content",
    "Verif.C66_lossless",
    "Verif.Spec.ieee_nearest"
   ],
   "note": "Every rounding to nearest, in particular IEEE 754 (ieee_nearest). The upper limit of the exponent is not modelled; all values are bounded far below it."
  },
  {
   "property": "C67",
   "status": "proved",
   "theorems": [
    "Verif.C67_header",
    "Verif.C67_rows",
    "Verif.C67_lines",
    "Verif.C67_files"
   ],
   "note": "GLONASS channels of magnitude at most 1000. `'%.3f' % x` is correct rounding of the double, which is what the text model does."
  },
  {
   "property": "C68",
   "status": "proved",
   "theorems": [
    "Verif.C68_base",
    "Verif.C68_base_near",
    "Verif.C68_eph",
    "Verif.C68_tgd"
   ],
   "note": "The upper limit of the exponent is not modelled; all values are far below it. `2 ** (1 + iURA * 0.5)` (RTCM_EPH.py:111) is only evaluated with decorate=True, which no caller passes."
  },
  {
   "property": "C69",
   "status": "partial",
   "theorems": [
    "Verif.C69_unambiguous",
    "Verif.C69_file",
    "Verif.C69_partial",
    "Verif.C69_violated"
   ],
   "note": "Missing: NavIC ephemerides (1041), for which the claim is false (C69_violated), and contents that the decoder refuses (C52_violated). Without header data in the output an MSM cannot be determined; the theorem assumes that header data are enabled, which is the default."
  },
  {
   "property": "C70",
   "status": "partial",
   "theorems": [
    "Verif.C70_failures",
    "Verif.C70_partial",
    "Verif.C70_violated"
   ],
   "note": "Missing: modes with MARGO, for which the claim is false (C70_violated). Failures of write() on an open file are not modelled."
  },
  {
   "property": "C71",
   "status": "proved",
   "theorems": [
    "Verif.C71_format",
    "Verif.C71_merge",
    "Verif.C71_names",
    "Verif.C71_override",
    "Verif.C71_main",
    "Verif.C71_defaults",
    "Verif.C71_shipped"
   ],
   "note": "Texts over ASCII white space and letters."
  },
  {
   "property": "C72",
   "status": "proved",
   "theorems": [
    "Verif.C72_messages",
    "Verif.C72_progress",
    "Verif.C72_text"
   ],
   "note": "The texts of exceptions are not modelled; for the lines about single observables and fields see C83."
  },
  {
   "property": "C73",
   "status": "partial",
   "theorems": [
    "Verif.C73_verdict",
    "Verif.C73_partial",
    "Verif.C73_violated"
   ],
   "note": "Missing: modes with MARGO, for which the claim is false (C73_violated): a MARGO file that cannot be created is logged as an error but not counted. C73_verdict holds in all modes and names these lines as the only exception."
  },
  {
   "property": "C74",
   "status": "proved",
   "theorems": [
    "Verif.C74_accepted",
    "Verif.C74_exit",
    "Verif.C74_rejected",
    "Verif.C74_help",
    "Verif.C74_text"
   ],
   "note": ""
  },
  {
   "property": "C75",
   "status": "proved",
   "theorems": [
    "Verif.C75_accepted",
    "Verif.C75_rejected",
    "Verif.C75_format"
   ],
   "note": ""
  },
  {
   "property": "C76",
   "status": "proved",
   "theorems": [
    "Verif.C76_program",
    "Verif.C76_configured",
    "Verif.C76_directory",
    "Verif.C76_files"
   ],
   "note": "Messages that the program refuses because of errors in it are excluded by the hypothesis `Convertible`, see C52, C59, C64."
  },
  {
   "property": "C77",
   "status": "proved",
   "theorems": [
    "Verif.C77_outside"
   ],
   "note": ""
  },
  {
   "property": "C78",
   "status": "partial",
   "theorems": [
    "Verif.C78_partial",
    "Verif.C78_agree",
    "Verif.C78_exact",
    "Verif.C78_directory",
    "Verif.C78_violated"
   ],
   "note": "The claim is false: a source file in the work folder of another source is deleted before it is converted (C78_violated). Proved: all other sources survive (C78_partial), the exact condition (C78_exact), the run equals the one with unchangeable sources if no source lies in a work folder (C78_agree), which is the case for sources of one directory (C78_directory)."
  },
  {
   "property": "C79",
   "status": "proved",
   "theorems": [
    "Verif.C79_paths",
    "Verif.C79_found"
   ],
   "note": ""
  },
  {
   "property": "C80",
   "status": "proved",
   "theorems": [
    "Verif.C80_files",
    "Verif.C80_live",
    "Verif.C80_program",
    "Verif.C80_shipped"
   ],
   "note": "The texts of the log are not part of this comparison."
  },
  {
   "property": "C81",
   "status": "proved",
   "theorems": [
    "Verif.C81_program",
    "Verif.C81_files",
    "Verif.C81_bare",
    "Verif.C81_bare_program"
   ],
   "note": "Messages that the program refuses because of errors in it are excluded by the hypothesis `Convertible`, as in C76. The text of a float is any function of its value that gives a JSON number."
  },
  {
   "property": "C82",
   "status": "proved",
   "theorems": [
    "Verif.C82_same",
    "Verif.C82_message",
    "Verif.C82_files",
    "Verif.C82_program"
   ],
   "note": "The condition on contents that are refused is `Content.Refused`. In formats with physical units MSM3 with a fine pseudorange marked invalid (decoded wrongly, C25) and, for rows, times out of range are excluded from C82_files and C82_program by the hypothesis `Sound`; no content is excluded in JSON-B, nor from C82_same and C82_message."
  },
  {
   "property": "C83",
   "status": "partial",
   "theorems": [
    "Verif.C83_lines",
    "Verif.C83_silent",
    "Verif.C83_sound",
    "Verif.C83_range",
    "Verif.C83_phase_partial",
    "Verif.C83_rate",
    "Verif.C83_violated",
    "Verif.C83_violated_general",
    "Verif.C83_nodup",
    "Verif.C83_bias",
    "Verif.C83_bias_only",
    "Verif.C83_log",
    "Verif.C83_content",
    "Verif.C83_file",
    "Verif.C83_level"
   ],
   "note": "Missing: phase ranges of MSM3 messages with a fine pseudorange marked invalid, for which the claim is false (C83_violated, C83_violated_general): the phase ranges of the later cells of the satellite are dropped (C25) and no line tells. Everything else is proved without exception."
  },
  {
   "property": "C84",
   "status": "proved",
   "theorems": [
    "Verif.C84_files",
    "Verif.C84_decode",
    "Verif.C84_undisturbed",
    "Verif.C84_off"
   ],
   "note": "A file can always be opened or never; writing to an open file does not fail."
  },
  {
   "property": "C85",
   "status": "proved",
   "theorems": [
    "Verif.C85_getbitu",
    "Verif.C85_getbits",
    "Verif.C85_getbitS",
    "Verif.C85_revbitu"
   ],
   "note": "About the embedded text (Verif/Source), not the model. Holds for every arithmetic."
  },
  {
   "property": "C86",
   "status": "proved",
   "theorems": [
    "Verif.C86_crc",
    "Verif.C86_frame"
   ],
   "note": "About the embedded text. Holds for every arithmetic."
  },
  {
   "property": "C87",
   "status": "proved",
   "theorems": [
    "Verif.C87_getSubset",
    "Verif.C87_markers",
    "Verif.C87_locktime",
    "Verif.C87_signals"
   ],
   "note": "About the embedded text. Holds for every arithmetic."
  },
  {
   "property": "C88",
   "status": "partial",
   "theorems": [
    "Verif.C88_total",
    "Verif.C88_bare_partial",
    "Verif.C88_scaled_partial",
    "Verif.C88_qzss_violated"
   ],
   "note": "About the embedded text. Missing: QZSS (1044), for which the claim is false: the text refuses every such message (C88_qzss_violated, as C31). Everything else is proved. Floats are exact rationals. C88_scaled_partial is for exact arithmetic (double precision: C102), the others for every arithmetic."
  },
  {
   "property": "C89",
   "status": "proved",
   "theorems": [
    "Verif.C89_new",
    "Verif.C89_messages",
    "Verif.C89_sound",
    "Verif.C89_clean",
    "Verif.C89_chunks"
   ],
   "note": "About the embedded text. Holds for every arithmetic."
  },
  {
   "property": "C90",
   "status": "proved",
   "theorems": [
    "Verif.C90_total",
    "Verif.C90_bare",
    "Verif.C90_sound"
   ],
   "note": "About the embedded text. Holds for every arithmetic."
  },
  {
   "property": "C91",
   "status": "partial",
   "theorems": [
    "Verif.C91_bare_partial",
    "Verif.C91_violated"
   ],
   "note": "About the embedded text. False for MSM2 and MSM3 contents for which the wrong length estimate of the code is not hidden by rounding (C91_violated), as in C22. Holds for every arithmetic."
  },
  {
   "property": "C92",
   "status": "proved",
   "theorems": [
    "Verif.C92_total",
    "Verif.C92_scaled",
    "Verif.C92_unknown",
    "Verif.C92_sound"
   ],
   "note": "About the embedded text. C92_total holds for every arithmetic, the others for exact arithmetic (double precision: C101)."
  },
  {
   "property": "C93",
   "status": "partial",
   "theorems": [
    "Verif.C93_scaled_partial",
    "Verif.C93_violated"
   ],
   "note": "About the embedded text. False for MSM2 and MSM3 contents with a wrong length estimate (C91_violated) and for MSM3 messages with a pseudorange marked invalid (C93_violated), as in C25. For exact arithmetic (double precision: C105)."
  },
  {
   "property": "C94",
   "status": "proved",
   "theorems": [
    "Verif.C94_total",
    "Verif.C94_short",
    "Verif.C94_carried",
    "Verif.C94_other"
   ],
   "note": "About the embedded text. Exact; that 1013 without announcements gives None is the violation C36. C94_other is for exact arithmetic (double precision: C103), the others for every arithmetic."
  },
  {
   "property": "C95",
   "status": "proved",
   "theorems": [
    "Verif.C95_carried",
    "Verif.C95_other"
   ],
   "note": "About the embedded text. Exact; that empty texts and 1013 without announcements give None are the violations C34, C35, C36 and C38. For exact arithmetic (double precision: C103)."
  },
  {
   "property": "C96",
   "status": "proved",
   "theorems": [
    "Verif.C96_text",
    "Verif.C96_assembled",
    "Verif.C96_catch",
    "Verif.C96_messages",
    "Verif.C96_clean"
   ],
   "note": "About the embedded text. Holds for every arithmetic."
  },
  {
   "property": "C97",
   "status": "proved",
   "theorems": [
    "Verif.C97_decode",
    "Verif.C97_counters"
   ],
   "note": "About the embedded text, for every history of the decoder. Holds for every arithmetic."
  },
  {
   "property": "C98",
   "status": "proved",
   "theorems": [
    "Verif.C98_bare",
    "Verif.C98_scaled",
    "Verif.C98_unknown",
    "Verif.C98_sound_bare",
    "Verif.C98_sound_scaled"
   ],
   "note": "About the embedded text, for every history of the decoder. Scaled mode is for exact arithmetic (double precision: C104), bare mode for every arithmetic."
  },
  {
   "property": "C99",
   "status": "proved",
   "theorems": [
    "Verif.C99_bare",
    "Verif.C99_scaled",
    "Verif.C99_other_bare",
    "Verif.C99_other_scaled"
   ],
   "note": "About the embedded text. Exact; that empty texts and 1013 without announcements give None are the violations C34, C35, C36 and C38. C99_bare holds for every arithmetic, the others for exact arithmetic (double precision: C104)."
  },
  {
   "property": "C100",
   "status": "partial",
   "theorems": [
    "Verif.C100_eph_bare_partial",
    "Verif.C100_eph_scaled_partial",
    "Verif.C100_qzss_violated",
    "Verif.C100_msm_bare_partial",
    "Verif.C100_msm_scaled_partial",
    "Verif.C100_msm_violated",
    "Verif.C100_scaled_violated"
   ],
   "note": "About the embedded text. False for every QZSS ephemeris (C100_qzss_violated), for MSM2 and MSM3 contents with a wrong length estimate (C100_msm_violated) and for MSM3 messages with a pseudorange marked invalid in scaled mode (C100_scaled_violated); proved for all others. Scaled mode is for exact arithmetic (double precision: C105), bare mode and C100_qzss_violated for every arithmetic."
  },
  {
   "property": "C101",
   "status": "proved",
   "theorems": [
    "Verif.C101_scaled",
    "Verif.C101_unknown",
    "Verif.C101_sound"
   ],
   "note": "About the embedded text in double precision, for every rounding to nearest."
  },
  {
   "property": "C102",
   "status": "partial",
   "theorems": [
    "Verif.C102_scaled_partial"
   ],
   "note": "About the embedded text in double precision. False for every QZSS ephemeris in every arithmetic (C100_qzss_violated, C88_qzss_violated); proved for the seven other types."
  },
  {
   "property": "C103",
   "status": "proved",
   "theorems": [
    "Verif.C103_carried",
    "Verif.C103_other_bare",
    "Verif.C103_other"
   ],
   "note": "About the embedded text in double precision. Bare mode of the carried messages is C94_carried, which holds for every arithmetic."
  },
  {
   "property": "C104",
   "status": "proved",
   "theorems": [
    "Verif.C104_scaled",
    "Verif.C104_unknown",
    "Verif.C104_sound",
    "Verif.C104_base",
    "Verif.C104_base_other",
    "Verif.C104_base_other_bare"
   ],
   "note": "About the embedded text in double precision, for every history of the decoder."
  },
  {
   "property": "C105",
   "status": "partial",
   "theorems": [
    "Verif.C105_eph_partial",
    "Verif.C105_text_partial",
    "Verif.C105_msm_partial"
   ],
   "note": "About the embedded text in double precision. False for QZSS ephemerides (C100_qzss_violated), for MSM2 and MSM3 contents with a wrong length estimate (C100_msm_violated) and for MSM3 messages with a pseudorange marked invalid (C100_scaled_violated in exact arithmetic); proved for all others."
  },
  {
   "property": "C106",
   "status": "partial",
   "theorems": [
    "Verif.C106_core",
    "Verif.C106_default",
    "Verif.C106_bare_partial",
    "Verif.C106_scaled_partial",
    "Verif.C106_double_partial",
    "Verif.C106_violated"
   ],
   "note": "About the embedded text of JSONCore (printers/json_printer.py:224-355 without is_json_dataclass). False for well-formed contents that are not accepted, of which nothing is delivered: QZSS ephemerides, 1013 without announcements, MSM2 and MSM3 with a wrong length estimate (C106_violated); scaled mode also without empty texts, texts that are not UTF-8, unknown signals and MSM3 with invalid pseudoranges (C34, C35, C27, C25). Proved for all others."
  },
  {
   "property": "C107",
   "status": "partial",
   "theorems": [
    "Verif.C107_run",
    "Verif.C107_bare_partial",
    "Verif.C107_scaled_partial",
    "Verif.C107_double_partial"
   ],
   "note": "About the embedded text of DecoderTop, the sub-decoders and JSONCore. The sequence of calls (run_conversion.py:113-134, converter_top.py:114-118, json_printer.py:200-209) is a relation, not embedded text. C107_run is complete. The claims about contents are false for those that are refused, as in C106 (C106_violated); proved for all others."
  },
  {
   "property": "C108",
   "status": "proved",
   "theorems": [
    "Verif.C108_rows",
    "Verif.C108_double",
    "Verif.C108_core",
    "Verif.C108_controls"
   ],
   "note": "About the embedded text of MargoCore (printers/margo_printer.py without make_header, format_obs_string and PrintMARGO) together with DecoderTop and the sub-decoders. Objects are as MargoControls() and MargoCore(controls) make them (C108_controls, C108_core); MargoCore(None), which takes the controls from a call in the class body, is not covered. The numbers of the semantics have no negative zero."
  },
  {
   "property": "C109",
   "status": "partial",
   "theorems": [
    "Verif.C109_satellite_partial",
    "Verif.C109_msm_partial",
    "Verif.C109_violated"
   ],
   "note": "About the same text. False for satellites without a column: of a message with such satellites only, not one number is printed (C109_violated). MSM2 and MSM3 contents that are refused and MSM3 phases that are dropped are lost before (C100_msm_violated, C100_scaled_violated). Proved for all others."
  },
  {
   "property": "C110",
   "status": "proved",
   "theorems": [
    "Verif.C110_run",
    "Verif.C110_double"
   ],
   "note": "About the embedded text of DecoderTop, the sub-decoders and MargoCore. The sequence of calls (run_conversion.py:113-134, converter_top.py:114-118) is a relation (Spec.MargoSession), not embedded text; the lines written to the files are not part of it."
  },
  {
   "property": "C111",
   "status": "proved",
   "theorems": [
    "Verif.C111_run",
    "Verif.C111_double"
   ],
   "note": "About the embedded text, as C110. Complete for every stream; MSM2 and MSM3 that the decoder refuses (C22) are among the errors that are counted."
  },
  {
   "property": "C112",
   "status": "proved",
   "theorems": [
    "Verif.C112_json",
    "Verif.C112_margo",
    "Verif.C112_margo_double"
   ],
   "note": "About the embedded text, as C107 and C110. A float is a rational number: the sign of a zero is not part of the claim. How a float is written as a number is the same function in both conversions."
  },
  {
   "property": "C113",
   "status": "proved",
   "theorems": [
    "Verif.C113_bare",
    "Verif.C113_bare_double",
    "Verif.C113_scaled",
    "Verif.C113_double",
    "Verif.C113_unique",
    "Verif.C113_frame"
   ],
   "note": "About the embedded text, as C107. The exemptions are in the statement (Spoiled): C25 and C106 say what happens there."
  },
  {
   "property": "C114",
   "status": "proved",
   "theorems": [
    "Verif.C114_lossless",
    "Verif.C114_double"
   ],
   "note": "About the embedded text, as C107; C69 is the claim about whole files, which is violated for 1041. That the texts of a number are in one file is C46 (transcribed model)."
  }
 ]
}