{"id": "C01", "title": "Chunking does not change the extracted messages", "statement": "Feeding a byte stream to Converter.parse_bytes / DecoderTop.catch_message in any sequence of chunks returns, concatenated, exactly the same list of messages in the same order as feeding it in one piece; and that list is the one given by a plain left-to-right scan of the whole stream.", "quantifier": "every byte string, every way of cutting it into chunks (including empty chunks)", "why_tests_cant": "the number of cut positions is exponential in the stream length and the interesting cuts (inside a sync pair, inside a header, inside a CRC) depend on the data", "anchors": ["decoder_top.py:DecoderTop.catch_message", "decoder_top.py:DecoderTop.__rebase_to_D3", "converter_top.py:Converter.parse_bytes", "run_conversion.py:decode_rtcm_file"]}
{"id": "C02", "title": "Chunking does not change the parse error statistics", "statement": "After feeding a byte stream in any sequence of chunks, ConverterStatistics.parsing_errors has the same value as after feeding it in one piece.", "quantifier": "every byte string, every way of cutting it into chunks", "why_tests_cant": "same exponential space as C01; the counter is driven by two hidden flags that survive between calls", "anchors": ["decoder_top.py:DecoderTop.catch_message", "decoder_top.py:DecoderTop.parse_errors", "converter_top.py:Converter.get_statistics"]}
{"id": "C03", "title": "Every extracted message is a complete valid RTCM3 frame", "statement": "Every message returned by parse_bytes starts with 0xD3, has six zero reserved bits, has a total length equal to its 10-bit length field plus 6, and its last three bytes are the CRC-24Q of all preceding bytes.", "quantifier": "every byte string, every chunking, every previous history of the decoder", "why_tests_cant": "all reachable decoder states and all inputs", "anchors": ["decoder_top.py:DecoderTop.catch_message", "decoder_top.py:DecoderTop.mlen", "decoder_top.py:DecoderTop.mcrc", "utilities/CRC24Q.py:CRC24Q.calc"]}
{"id": "C04", "title": "Extraction invents, reorders, overlaps and duplicates nothing", "statement": "The input stream is the concatenation gap0 msg1 gap1 ... msgN rest where msg1..msgN are exactly the returned messages, in order: messages are disjoint contiguous slices of the stream in stream order.", "quantifier": "every byte string, every chunking", "why_tests_cant": "all inputs", "anchors": ["decoder_top.py:DecoderTop.catch_message", "decoder_top.py:DecoderTop.__rebase_to_D3"]}
{"id": "C05", "title": "A clean stream is extracted completely and without errors", "statement": "If the stream is a concatenation of valid frames, parse_bytes returns exactly those frames, in order, parsing_errors stays 0 and nothing is left buffered.", "quantifier": "every list of valid frames (any payloads 0..1023 bytes), every chunking", "why_tests_cant": "unbounded number of frames and payload contents; payloads may themselves contain 0xD3 and whole frames", "anchors": ["decoder_top.py:DecoderTop.catch_message"]}
{"id": "C06", "title": "Noise without a sync byte loses no message and is counted once per gap", "statement": "If valid frames are separated, preceded and followed by arbitrary byte runs that do not contain 0xD3, exactly the frames are returned, and parsing_errors equals the number of non-empty runs strictly between two frames.", "quantifier": "every list of valid frames, every D3-free noise between them, every chunking", "why_tests_cant": "unbounded noise/frames", "anchors": ["decoder_top.py:DecoderTop.catch_message", "decoder_top.py:DecoderTop.__rebase_to_D3"]}
{"id": "C07", "title": "No valid frame is lost except to an overlapping valid frame", "statement": "A valid frame occurring at any position of an arbitrarily corrupted stream is returned, unless it overlaps another valid frame that starts earlier and is itself returned, provided at least 1029 bytes of stream follow its start (or the scanner has moved past it).", "quantifier": "every stream, every position in it, every chunking", "why_tests_cant": "all corruptions", "anchors": ["decoder_top.py:DecoderTop.catch_message", "decoder_top.py:DecoderTop.__rebase_to_D3"]}
{"id": "C08", "title": "The parser keeps at most 1028 bytes between calls", "statement": "After any call of parse_bytes the decoder retains fewer than 1029 input bytes, whatever was fed before; memory does not grow with the stream.", "quantifier": "every history of calls", "why_tests_cant": "unbounded histories", "anchors": ["decoder_top.py:DecoderTop.catch_message", "decoder_top.py:DecoderTop._tail"]}
{"id": "C09", "title": "Parsing always terminates normally", "statement": "parse_bytes terminates and returns a list (never raises) for every byte string in every reachable decoder state.", "quantifier": "every byte string, every reachable state", "why_tests_cant": "termination and absence of exceptions over all inputs", "anchors": ["decoder_top.py:DecoderTop.catch_message", "decoder_top.py:DecoderTop.__rebase_to_D3", "utilities/bits.py:Bits.getbitu", "utilities/CRC24Q.py:CRC24Q.calc"]}
{"id": "C10", "title": "parsing_errors counts exactly the dirty gaps between consecutive messages", "statement": "parsing_errors equals the number of pairs of consecutive returned messages that are separated by at least one discarded byte; bytes before the first or after the last message are never counted.", "quantifier": "every byte string, every chunking", "why_tests_cant": "all inputs; the statistic is what the user sees as data quality", "anchors": ["decoder_top.py:DecoderTop.catch_message", "decoder_top.py:DecoderTop.parse_errors"]}
{"id": "C11", "title": "CRC24Q.calc is the CRC-24Q polynomial remainder", "statement": "For every byte string CRC24Q.calc returns the remainder of the message polynomial times x^24 modulo the CRC-24Q generator 0x1864CFB (the bit-by-bit definition), is below 2^24 and never indexes outside its table.", "quantifier": "every byte string", "why_tests_cant": "unbounded inputs; a single wrong table entry is hit only by particular intermediate values", "anchors": ["utilities/CRC24Q.py:CRC24Q.calc", "utilities/CRC24Q.py:CRC24Q"]}
{"id": "C12", "title": "Any burst of at most 24 bits in a frame is detected", "statement": "If a valid frame is altered by any non-zero error pattern confined to 24 consecutive bits, the result fails the CRC check and is not returned as a message.", "quantifier": "every valid frame, every burst position and shape", "why_tests_cant": "2^24 patterns times all positions times all frames", "anchors": ["utilities/CRC24Q.py:CRC24Q.calc", "decoder_top.py:DecoderTop.mcrc"]}
{"id": "C13", "title": "Any odd number of flipped bits and any two flipped bits in a frame are detected", "statement": "If a valid frame is altered by flipping an odd number of bits, or exactly two bits, the result fails the CRC check.", "quantifier": "every valid frame, every error pattern of odd weight or weight two", "why_tests_cant": "exponentially many patterns", "anchors": ["utilities/CRC24Q.py:CRC24Q.calc", "decoder_top.py:DecoderTop.mcrc"]}
{"id": "C14", "title": "getbitu reads exactly the addressed bits", "statement": "Bits.getbitu(buf,start,length) returns the big-endian value of bits start..start+length-1 of buf when 1<=length<=128, start>=0 and the field lies inside buf, and raises ExceptionBitsError in every other case.", "quantifier": "every buffer, every start, every length", "why_tests_cant": "alignment, length and content vary independently", "anchors": ["utilities/bits.py:Bits.getbitu"]}
{"id": "C15", "title": "Signed readers are two's complement and sign-magnitude", "statement": "Bits.getbits returns the two's complement and EphemerisDecoder.getbitS the sign-magnitude value of the addressed bits; the results are inside [-2^(n-1),2^(n-1)) resp. (-2^(n-1),2^(n-1)), and encoding any such value and reading it back gives the value.", "quantifier": "every buffer, start and length; every representable value", "why_tests_cant": "all values of all widths up to 128 bits", "anchors": ["utilities/bits.py:Bits.getbits", "sub_decoders/RTCM_EPH.py:EphemerisDecoder.getbitS"]}
{"id": "C16", "title": "revbitu is bit reversal", "statement": "Bits.revbitu(a,n) has bit i equal to bit n-1-i of a for all i<n and no bits above n; applying it twice gives a mod 2^n; it preserves the number of set bits of an n-bit value; it raises only when n+ofs exceeds 128.", "quantifier": "every integer a>=0, every n, ofs", "why_tests_cant": "all values", "anchors": ["utilities/bits.py:Bits.revbitu", "utilities/bits.py:Bits.revbits"]}
{"id": "C17", "title": "decode never raises and returns either nothing or an object of the declared type", "statement": "Converter.decode(msg) returns for every byte string; the result is None or an object whose type is the one declared for that message number in the decoder specification of the selected mode, and its recorded message number equals the number in the frame.", "quantifier": "every byte string, every mode, every history", "why_tests_cant": "all inputs including truncated and garbage ones", "anchors": ["decoder_top.py:DecoderTop.decode", "decoder_top.py:catch_decoder_exceptions", "decoder_top.py:SubDecoderInterface", "converter_top.py:Converter.decode"]}
{"id": "C18", "title": "Decoding statistics are exact", "statement": "decoding_attempts increases by one for exactly those messages whose number is supported in the selected mode; decoding_errors increases by one for exactly those of them for which decode returned None; messages with other numbers change nothing and return None. So 0<=decoding_errors<=decoding_attempts always.", "quantifier": "every sequence of decode calls on any byte strings", "why_tests_cant": "all histories", "anchors": ["decoder_top.py:DecoderTop.decode", "decoder_top.py:DecoderTop.dec_errors", "decoder_top.py:DecoderTop.dec_attempts", "converter_top.py:Converter.get_statistics"]}
{"id": "C19", "title": "Exactly one sub-decoder is responsible for each message number", "statement": "In every mode the sets of message numbers of the registered sub-decoders are pairwise disjoint, so the result of decode does not depend on registration order, and each number reaches the decoder of its own family (MSM1-3, MSM4-7, ephemeris, base station).", "quantifier": "every message number, every registration order, every mode", "why_tests_cant": "all orders and numbers at once", "anchors": ["decoder_top.py:SubDecoderInterface", "decoder_top.py:DecoderTop.register_decoder", "converter_top.py:strategy_MSM17toMARGO", "converter_top.py:strategy_RTCM3_to_JARGO"]}
{"id": "C20", "title": "Message numbers are classified according to the RTCM numbering plan", "statement": "getSubset/MSMT.msm_subset return (constellation letter, MSMk) exactly for numbers 1071+10*g+(k-1) with g in 0..6 (G,R,E,S,Q,B,I), k in 1..7; ephemeris and legacy numbers are classified by their own tables; every other integer gives ('','').", "quantifier": "every integer", "why_tests_cant": "all integers; overlapping tables", "anchors": ["utilities/RTCM_utilities.py:getSubset", "utilities/RTCM_utilities.py:MSMT.msm_subset", "utilities/RTCM_utilities.py:EPHT", "utilities/RTCM_utilities.py:LEGT"]}
{"id": "C21", "title": "MSM4-MSM7 bare decoding inverts RTCM encoding", "statement": "Encoding any well-formed MSM4, MSM5, MSM6 or MSM7 content (header, masks, satellite data, signal data, all fields in range, at most 64 cells, at least one cell) with the RTCM field layout into a frame and decoding it in bare mode returns exactly that content; and every bare object returned is the content of the frame it came from.", "quantifier": "every content of every MSM4..7 message: any number of satellites/signals/cells", "why_tests_cant": "sizes and field alignments vary with the masks", "anchors": ["sub_decoders/RTCM_MSM.py:BareObservablesMSM17Decoder.decode", "sub_decoders/RTCM_MSM.py:BareObservablesMSM17Decoder.__extract_hdr", "sub_decoders/RTCM_MSM.py:BareObservablesMSM17Decoder.__extract_observables4567"]}
{"id": "C22", "title": "MSM1-MSM3 bare decoding inverts RTCM encoding", "statement": "Encoding any well-formed MSM1, MSM2 or MSM3 content with the RTCM field layout and decoding it in bare mode returns exactly that content.", "quantifier": "every content of every MSM1..3 message", "why_tests_cant": "no test data exist for MSM1, MSM2, MSM3 in the repository; sizes vary with the masks", "anchors": ["sub_decoders/RTCM_MSM.py:BareObservablesMSM17Decoder.decode", "sub_decoders/RTCM_MSM.py:BareObservablesMSM17Decoder.__extract_observables123"]}
{"id": "C23", "title": "Empty MSM messages are decoded", "statement": "A well-formed MSM frame whose satellite mask is zero (header only) decodes successfully to an object without observations.", "quantifier": "every header content, every MSM number", "why_tests_cant": "no sample of an empty message exists; the length checks interact", "anchors": ["sub_decoders/RTCM_MSM.py:BareObservablesMSM17Decoder.__extract_hdr", "sub_decoders/RTCM_MSM.py:BareObservablesMSM17Decoder.decode"]}
{"id": "C24", "title": "MSM4-7 scaled observables belong to the right satellite and signal and have the right value", "statement": "In scaled mode, for each cell flagged in the cell mask the code range, phase range, phase rate, C/N0, lock time and half-cycle flag stored under (signal, satellite) are computed by the RTCM formulas from the data of that very satellite and cell; no other (signal, satellite) key exists.", "quantifier": "every content of every MSM4..7 message, every satellite/signal/cell mask", "why_tests_cant": "the pairing uses running indexes over three nested masks", "anchors": ["sub_decoders/RTCM_MSM.py:Bare2Scaled.convert", "sub_decoders/RTCM_MSM.py:Bare2Scaled._convert_obs47"]}
{"id": "C25", "title": "MSM1-3 scaled observables belong to the right satellite and signal and have the right value", "statement": "As C24 for MSM1..3: the value stored under (signal, satellite) depends only on the data of that satellite and that cell and follows the RTCM formulas.", "quantifier": "every content of every MSM1..3 message", "why_tests_cant": "as C24; validity flags are carried by loop variables", "anchors": ["sub_decoders/RTCM_MSM.py:Bare2Scaled.convert", "sub_decoders/RTCM_MSM.py:Bare2Scaled._convert_obs13"]}
{"id": "C26", "title": "Invalid-value markers never turn into measurements", "statement": "A cell whose rough or fine field carries the RTCM 'invalid' code yields no entry for the affected observable, and only these codes suppress an entry: the marker checks accept exactly the field values different from the most negative code.", "quantifier": "every field value of every width", "why_tests_cant": "checks operate with masks on sign-extended integers", "anchors": ["sub_decoders/RTCM_MSM.py:Bare2Scaled._convert_obs47", "utilities/RTCM_utilities.py:MSMT.isDF400_OK", "utilities/RTCM_utilities.py:MSMT.isDF401_OK", "utilities/RTCM_utilities.py:MSMT.isDF404_OK", "utilities/RTCM_utilities.py:MSMT.isDF405_OK", "utilities/RTCM_utilities.py:MSMT.isDF406_OK"]}
{"id": "C27", "title": "An MSM message containing a signal without RINEX code is rejected as a whole in scaled mode, and only then", "statement": "Scaling a decoded MSM message fails if and only if its signal mask contains a signal number without an entry in the conversion table of its constellation; then decode returns None and one decoding error is counted, while bare mode still returns the data.", "quantifier": "every decoded MSM message", "why_tests_cant": "all masks", "anchors": ["sub_decoders/RTCM_MSM.py:decode_msm17", "sub_decoders/RTCM_MSM.py:Bare2Scaled.convert", "utilities/RTCM_utilities.py:MSMT.rnx_lit", "utilities/RTCM_utilities.py:MSMT.crr_frq"]}
{"id": "C28", "title": "Lock time tables are monotone and gap-free", "statement": "unpack_tlock10 is strictly increasing on 0..704, equals the RTCM DF407 table, is 0 for reserved codes above 704; unpack_tlock4 is strictly increasing on 0..15 and equals the DF402 table.", "quantifier": "every code", "why_tests_cant": "all codes and all pairs of codes", "anchors": ["utilities/RTCM_utilities.py:MSMT.unpack_tlock10", "utilities/RTCM_utilities.py:MSMT.unpack_tlock4"]}
{"id": "C29", "title": "Signal codes map injectively to RINEX codes that all have a carrier frequency", "statement": "For every constellation different MSM signal numbers give different RINEX codes, each code has two characters, and crr_frq is defined for each, so scaling can never overwrite one signal with another or fail on a missing frequency.", "quantifier": "every constellation, every pair of signal numbers", "why_tests_cant": "whole-table claim relied on by the dictionaries in the output", "anchors": ["utilities/RTCM_utilities.py:MSMT.rnx_lit", "utilities/RTCM_utilities.py:MSMT.crr_frq"]}
{"id": "C30", "title": "Ephemeris decoding inverts RTCM encoding", "statement": "For messages 1019, 1020, 1041, 1042, 1045, 1046 encoding any ephemeris content with the RTCM field layout (field order, widths, signedness, reserved bits) and decoding it in bare mode returns exactly that content.", "quantifier": "every ephemeris content with fields in range, any reserved bits, any trailing bytes", "why_tests_cant": "30+ fields with independent widths; a field shifted by one bit can look plausible", "anchors": ["sub_decoders/RTCM_EPH.py:EphemerisDecoder.__decode1019", "sub_decoders/RTCM_EPH.py:EphemerisDecoder.__decode1020", "sub_decoders/RTCM_EPH.py:EphemerisDecoder.__decode1041", "sub_decoders/RTCM_EPH.py:EphemerisDecoder.__decode1042", "sub_decoders/RTCM_EPH.py:EphemerisDecoder.__decode1045", "sub_decoders/RTCM_EPH.py:EphemerisDecoder.__decode1046"]}
{"id": "C31", "title": "QZSS ephemeris (1044) is decodable", "statement": "A well-formed 1044 message is decoded successfully to the encoded QZSS ephemeris.", "quantifier": "every QZSS ephemeris content", "why_tests_cant": "no 1044 sample exists in the repository", "anchors": ["sub_decoders/RTCM_EPH.py:EphemerisDecoder.__decode1044", "sub_decoders/RTCM_EPH.py:EphemerisDecoder.__length_check"]}
{"id": "C32", "title": "Ephemeris scaling applies the RTCM resolution to every field and loses nothing", "statement": "Scaled ephemeris fields equal the bare integers times the resolution defined by RTCM for the data field (and the documented unit conversions for GLONASS time fields); scaling is injective on field values in range.", "quantifier": "every bare ephemeris of every type", "why_tests_cant": "all values", "anchors": ["sub_decoders/RTCM_EPH.py:EphemerisDecoder.scale", "sub_decoders/RTCM_EPH.py:EphemerisDecoder.__scale1019", "sub_decoders/RTCM_EPH.py:EphemerisDecoder.__scale1020", "sub_decoders/RTCM_EPH.py:EphemerisDecoder.__scale1042", "sub_decoders/RTCM_EPH.py:EphemerisDecoder.__scale1046"]}
{"id": "C33", "title": "Reference point messages 1005/1006 decode and scale exactly", "statement": "Encoding any content of 1005/1006 and decoding it returns the same integers in bare mode, and coordinates/height times 0.0001 m, booleans and quarter-cycle text in scaled mode; frames whose length is not exactly the message length are rejected.", "quantifier": "every content, every buffer length", "why_tests_cant": "38-bit signed fields, all values", "anchors": ["sub_decoders/RTCM_BASE.py:BaseStationDataDecoder.__decode10056", "sub_decoders/RTCM_BASE.py:BaseStationDataDecoder.__scale10056", "sub_decoders/RTCM_BASE.py:BaseStationDataDecoder.__length_check"]}
{"id": "C34", "title": "Antenna/receiver text messages 1007/1008/1033 return the transmitted text", "statement": "For any antenna descriptor, serial number, receiver descriptor, firmware version and receiver serial number strings encoded in 1007/1008/1033, bare mode returns their bytes in hexadecimal form and scaled mode returns the strings themselves.", "quantifier": "every combination of string contents and lengths 0..255", "why_tests_cant": "up to five variable-length fields", "anchors": ["sub_decoders/RTCM_BASE.py:BaseStationDataDecoder.__decode10078_1033", "sub_decoders/RTCM_BASE.py:BaseStationDataDecoder.__scale10078_1033"]}
{"id": "C35", "title": "Text message 1029 returns the transmitted Unicode text", "statement": "For any Unicode string encoded in 1029 scaled mode returns that string; bytes that are not valid UTF-8 give no object and one decoding error.", "quantifier": "every string that fits in 255 bytes", "why_tests_cant": "all Unicode strings", "anchors": ["sub_decoders/RTCM_BASE.py:BaseStationDataDecoder.__decode1029", "sub_decoders/RTCM_BASE.py:BaseStationDataDecoder.__scale1029"]}
{"id": "C36", "title": "System parameters 1013 return the announced schedule", "statement": "Encoding any 1013 content with any number (0..31) of announcements with distinct message ids and decoding it returns all announcements.", "quantifier": "every list of announcements", "why_tests_cant": "variable number of 29-bit records", "anchors": ["sub_decoders/RTCM_BASE.py:BaseStationDataDecoder.__decode1013", "sub_decoders/RTCM_BASE.py:BaseStationDataDecoder.__scale1013"]}
{"id": "C37", "title": "GLONASS code-phase bias 1230 assigns each bias to its signal", "statement": "For every validity mask the k-th transmitted bias is assigned to the k-th flagged signal in the order 1C,1P,2C,2P, the others keep validity 0 and correction 0.", "quantifier": "every mask, every bias values", "why_tests_cant": "16 masks times all values", "anchors": ["sub_decoders/RTCM_BASE.py:BaseStationDataDecoder.__decode1230", "sub_decoders/RTCM_BASE.py:BaseStationDataDecoder.__scale1230"]}
{"id": "C38", "title": "Scaled mode succeeds whenever bare mode does", "statement": "For ephemeris and base station messages, if bare decoding of a frame succeeds then scaled decoding of the same frame succeeds.", "quantifier": "every frame", "why_tests_cant": "all frames", "anchors": ["sub_decoders/RTCM_BASE.py:BaseStationDataDecoder.scale", "sub_decoders/RTCM_EPH.py:EphemerisDecoder.scale"]}
{"id": "C39", "title": "Every decoded object is printed by exactly one printer and each attempt is counted", "statement": "In every mode each object returned by decode is handled by exactly one sub-printer, independent of the iteration order of the printer set; printing_attempts increases by one for it and printing_errors by one exactly if the printer refused it; so printing_attempts equals decoding_attempts minus decoding_errors.", "quantifier": "every sequence of messages, every mode, every set iteration order", "why_tests_cant": "set order is not deterministic across runs", "anchors": ["printer_top.py:PrinterTop.print", "printer_top.py:PrinterTop.errors", "printer_top.py:SubPrinterInterface.make_specs", "converter_top.py:strategy_RTCM3_to_JARGO"]}
{"id": "C40", "title": "MARGO rows have a fixed shape and put each satellite in its own column", "statement": "Every MARGO observation row consists of the epoch time followed by exactly MAX_SATS(gnss) columns; column s holds the value of satellite s or NaN; satellites above MAX_SATS are not printed.", "quantifier": "every ObservablesMSM object, every control setting", "why_tests_cant": "all satellite subsets and signals", "anchors": ["printers/margo_printer.py:MargoCore.ObservablesMSMtoPrintBuffer", "printers/margo_printer.py:MargoCore.format_obs_string"]}
{"id": "C41", "title": "No decoded observation is lost by the MARGO printer", "statement": "Each code range, carrier phase (without half-cycle ambiguity), Doppler and C/N0 value of a decoded MSM message appears in the MARGO output.", "quantifier": "every decoded MSM message", "why_tests_cant": "all satellite numbers 1..64 of all constellations", "anchors": ["printers/margo_printer.py:MargoCore.MAX_SATS", "printers/margo_printer.py:MargoCore.ObservablesMSMtoPrintBuffer"]}
{"id": "C42", "title": "Time conversion to GPS time", "statement": "conv_to_gps_time maps BeiDou time of week to (t+14 s) mod one week and GLONASS day/time of day to (day*86400 s + t - 3 h + leap seconds) mod one week, result always inside [0, week) for valid inputs; it is injective, all other systems are unchanged.", "quantifier": "every valid time, day and leap second value", "why_tests_cant": "week boundary cases for all values", "anchors": ["printers/margo_printer.py:MargoCore.conv_to_gps_time"]}
{"id": "C43", "title": "MARGO units: phase in cycles and Doppler with opposite sign", "statement": "Printed carrier phase times the wavelength of the satellite's carrier equals the decoded phase range, printed Doppler times the wavelength equals minus the decoded phase range rate, where GLONASS carriers are base + channel*step from the control table; half-cycle-ambiguous phases are NaN unless HCA output is enabled.", "quantifier": "every observation, every literal table", "why_tests_cant": "all values; FDMA channel per satellite", "anchors": ["printers/margo_printer.py:MargoCore.make_crr_frq", "printers/margo_printer.py:MargoCore.make_lambdas", "printers/margo_printer.py:MargoCore.ObservablesMSMtoPrintBuffer"]}
{"id": "C44", "title": "MARGO files are separate per constellation, observable, signal and message type", "statement": "Two rows go to the same file iff they have the same constellation, observable kind, signal and MSM type; each file starts with exactly one two-line header followed by one row per epoch in print order.", "quantifier": "every sequence of printed messages", "why_tests_cant": "unbounded sequences; file cache state", "anchors": ["printers/margo_printer.py:MargoCore.make_obs_file_name", "printers/margo_printer.py:PrintMARGO.__append", "printers/margo_printer.py:PrintMARGO.__create_ofile"]}
{"id": "C45", "title": "JSON output files are well-formed arrays with one element per printed object", "statement": "After close every JSON file consists of '[', a header element naming the object type, then one element per printed object of that message number in print order, separated by commas, then ']'; so it is a JSON array whenever the elements are JSON values.", "quantifier": "every sequence of printed objects followed by close", "why_tests_cant": "unbounded sequences; only a complete parse of each file would show it", "anchors": ["printers/json_printer.py:PrintJSON.__print", "printers/json_printer.py:PrintJSON.__append", "printers/json_printer.py:PrintJSON.__close"]}
{"id": "C46", "title": "JSON files never mix message numbers", "statement": "Different message numbers are written to different files and each message number always to the same file; every number that can be decoded has a file.", "quantifier": "every pair of message numbers", "why_tests_cant": "whole-table claim", "anchors": ["printers/json_printer.py:JSON_SPEC", "printers/json_printer.py:PrintJSON.__create_ofile"]}
{"id": "C47", "title": "Failed control updates leave the previous controls in force", "statement": "Controls are available only after a complete valid initialization; an update either replaces a control group by a complete valid one or leaves it exactly as it was.", "quantifier": "every initial and update configuration", "why_tests_cant": "all configurations", "anchors": ["controls.py:ConverterControls.init_from_file", "controls.py:ConverterControls.update_from_file", "controls.py:ConverterControls._make_MARGO", "controls.py:ConverterControls._make_JSON"]}
{"id": "C48", "title": "'Finished without errors' is reported only if all three error counters are zero", "statement": "main reports 'Finished without errors.' for a file only if parsing_errors, decoding_errors and printing_errors are all zero.", "quantifier": "every outcome of a conversion", "why_tests_cant": "needs all combinations of counters", "anchors": ["run_conversion.py:main"]}
{"id": "C49", "title": "Different source files get different work folders", "statement": "Converting several files in one run writes the products of different source files into different folders, so no result is destroyed by a later file.", "quantifier": "every list of source paths", "why_tests_cant": "all path combinations", "anchors": ["run_conversion.py:create_work_folder", "run_conversion.py:main"]}
{"id": "C50", "title": "The logger is always released between files", "statement": "For every list of files and every outcome per file (folder failure, log file failure, missing controls, missing converter, finished, terminated) the logger is uninitialised when the next file starts, so initialising it never fails with 'Logger already exists'.", "quantifier": "every list of files, every combination of outcomes", "why_tests_cant": "exponential combinations", "anchors": ["run_conversion.py:main", "run_conversion.py:init_logger", "logger.py:LoggerConsFile"]}
{"id": "C51", "title": "The converted result of a file does not depend on the read chunk size", "statement": "decode_rtcm_file produces the same sequence of decoded and printed objects and the same statistics for every positive chunk size, namely those of processing the whole file at once.", "quantifier": "every file content, every chunk size", "why_tests_cant": "all files times all chunk sizes", "anchors": ["run_conversion.py:decode_rtcm_file", "run_conversion.py:FILE_CHUNCK_LEN"]}
{"id": "C52", "title": "End to end: what was encoded is what is output", "statement": "If a file is any concatenation of frames that encode well-formed messages of the supported kinds, conversion in bare JSON mode prints exactly the encoded contents in order, with zero parsing, decoding and printing errors.", "quantifier": "every list of well-formed messages", "why_tests_cant": "composition of all layers over unbounded inputs", "anchors": ["run_conversion.py:decode_rtcm_file", "converter_top.py:Converter", "converter_top.py:strategy_MSM17_EPH_BASE_to_JSON_BareData"]}
{"id": "C53", "title": "compare is reflexive, strict on integers and text, tolerant on floats", "statement": "DataClassMethods.compare(x,x) is true; compare(x,y) true implies equal integer and string fields, equal shape of containers, and floats that agree within the relative tolerance.", "quantifier": "every pair of data objects", "why_tests_cant": "all nested values, signs and magnitudes", "anchors": ["gnss_types/data_class_methods.py:DataClassMethods.compare", "gnss_types/data_class_methods.py:DataClassMethods.__compare"]}
{"id": "C54", "title": "Interactive and command line file selection only returns existing selected files", "statement": "make_list_of_source_files returns, in order, exactly the arguments that are files, or for a single directory argument exactly the files whose 1-based indexes were entered and are in range; any non-integer input selects nothing.", "quantifier": "every argument list and every user input", "why_tests_cant": "all inputs", "anchors": ["run_conversion.py:make_list_of_source_files"]}
{"id": "C55", "title": "All decoded fields of an ephemeris reach the JSON output", "statement": "Every field decoded from an ephemeris message appears in the JSON element printed for it.", "quantifier": "every ephemeris message type", "why_tests_cant": "the output is produced by dataclass introspection, a missing field goes unnoticed by value comparison", "anchors": ["gnss_types/ephemeris.py:EphNAVIC", "printers/json_printer.py:JSONCore.dataClassToPrintBuffer"]}
{"id": "C56", "title": "MSM signal numbers map to the RINEX codes and carriers of the standard", "statement": "For every constellation and every signal number rnx_lit gives the RINEX code that RTCM 10403.3 assigns to it (none for reserved numbers) and crr_frq of that code is the carrier frequency of its band.", "quantifier": "every constellation, every signal number", "why_tests_cant": "227 table entries; a wrong attribute letter or frequency digit gives plausible output", "anchors": ["utilities/RTCM_utilities.py:MSMT.rnx_lit", "utilities/RTCM_utilities.py:MSMT.crr_frq"]}
{"id": "C57", "title": "MARGO numbers are correctly rounded and rows can be read back", "statement": "Every number in a MARGO row reads back to a value within half a unit of its last printed decimal of the value it stands for; a row splits at the commas into exactly one time field and one field per satellite, and a file splits into lines that are exactly the two header lines and the rows.", "quantifier": "every value, every row", "why_tests_cant": "rounding and separator errors show only for particular values", "anchors": ["printers/margo_printer.py:MargoCore.format_obs_string", "printers/margo_printer.py:MargoCore.make_header"]}
{"id": "C58", "title": "An object that is counted as printed has been written", "statement": "If printing an object raises nothing, so that it is counted as a success, then its text is in the output file; in particular a failure to create an output file is counted as a printing error.", "quantifier": "every object, every pattern of file creation failures", "why_tests_cant": "file creation failures are not exercised by tests", "anchors": ["printers/json_printer.py:PrintJSON.__append", "printers/margo_printer.py:PrintMARGO.__append", "printers/margo_printer.py:PrintMARGO.__create_ofile", "printer_top.py:PrinterTop.print"]}
{"id": "C59", "title": "End to end in physical units", "statement": "If a file is any concatenation of frames that encode well-formed messages of the supported kinds, conversion in JSON mode prints, in order and per message number, exactly the encoded contents in physical units and decoded text, with zero parsing, decoding and printing errors.", "quantifier": "every list of contents, every read chunk size", "why_tests_cant": "composition of framing, decoding, scaling, serialisation and file handling for all contents", "anchors": ["converter_top.py:Converter", "run_conversion.py:decode_rtcm_file", "printers/json_printer.py:PrintJSON"]}
{"id": "C60", "title": "Noise and foreign messages do not disturb the output", "statement": "If frames of supported messages are mixed with noise free of 0xD3 and with valid frames of unsupported numbers, conversion in bare JSON mode writes exactly the same elements as without them; unsupported frames are not counted and parsing_errors is the number of noise runs between frames.", "quantifier": "every interleaving, every noise, every read chunk size", "why_tests_cant": "unbounded interleavings", "anchors": ["run_conversion.py:decode_rtcm_file", "decoder_top.py:DecoderTop.catch_message", "decoder_top.py:DecoderTop.decode"]}
{"id": "C61", "title": "A file is converted the same way among others as alone", "statement": "Without file system failures, converting a file together with any other files gives the same verdict and the same products as converting it alone, if its work folder neither contains nor is contained in those of the others; in particular for distinct files with one extension in one directory.", "quantifier": "every list of files, every content of the files, every mode, every state of the file system without failures", "why_tests_cant": "all combinations of files and contents; state left by earlier files (logger, folders, converters)", "anchors": ["run_conversion.py:main", "run_conversion.py:create_work_folder", "converter_top.py:ConverterFactory"]}
{"id": "C62", "title": "No contents of the source files can stop a run", "statement": "Whatever bytes the source files contain, whichever file system calls fail and whatever controls are available, the main loop ends with a fitting verdict for each selected file, in order, or with an OSError if a file system call failed; readable files are never reported as terminated, provided every GLONASS satellite has a frequency channel with a nonzero carrier.", "quantifier": "every list of files, every byte string, every pattern of file system failures, every known format", "why_tests_cant": "a decoder or printer exception that escapes needs a particular byte string; fuzzing samples a negligible part of them", "anchors": ["run_conversion.py:main", "run_conversion.py:decode_rtcm_file", "converter_top.py:Converter", "printer_top.py:PrinterTop.print", "printers/margo_printer.py:MargoCore"]}
{"id": "C63", "title": "The output files are determined by the decoded objects, in every mode", "statement": "For every byte string, in every mode and without file system failures, conversion ends regularly, counts no printing errors, and the file system afterwards is the one before with exactly these files written: per message number the JSON file of the objects printed as JSON, in order, and per constellation, observable, signal and message type the MARGO file of the rows of the observables, in order; no other file is touched.", "quantifier": "every byte string, every mode, every read chunk size, every state of the file system", "why_tests_cant": "unbounded interleavings of messages over about 90 JSON files and several hundred MARGO files", "anchors": ["converter_top.py:Converter", "printer_top.py:PrinterTop", "printers/json_printer.py:PrintJSON", "printers/margo_printer.py:PrintMARGO", "run_conversion.py:decode_rtcm_file"]}
{"id": "C64", "title": "End to end: MSM contents to MARGO files", "statement": "If a file is any mixture of frames encoding well-formed contents, noise without 0xD3 and valid frames of other numbers, where scaled decoding delivers the MSM contents (C22, C25, C27) and their times are valid, then conversion in MARGO mode counts no decoding or printing errors and, for each observable, signal and message type that occurs, writes one file that splits into its two header lines and exactly one line per message with this signal, showing the GPS time of week and for each satellite its encoded value in MARGO units rounded to the printed decimals, or NaN.", "quantifier": "every list of contents, every noise, every read chunk size", "why_tests_cant": "composition of framing, decoding, scaling, time conversion, formatting and file handling for all contents", "anchors": ["converter_top.py:Converter", "printers/margo_printer.py:PrintMARGO", "printers/margo_printer.py:MargoCore", "run_conversion.py:decode_rtcm_file"]}
{"id": "C65", "title": "JARGO is MARGO for observables and JSON for the rest", "statement": "For every byte string, conversion in mode JARGO leaves every JSON file of an MSM number as it was, writes every other JSON file as mode JSON does, every other file as mode MARGO does, and counts what mode JSON counts.", "quantifier": "every byte string, every read chunk size, every state of the file system without failures", "why_tests_cant": "relates three programs on all inputs", "anchors": ["printer_top.py:SubPrinterInterface", "converter_top.py:ConverterFactory", "printers/json_printer.py:PrintJSON", "printers/margo_printer.py:PrintMARGO"]}
{"id": "C66", "title": "Scaled observables in double precision", "statement": "With every literal, conversion and arithmetic operation of the scaling rounded to a nearest IEEE 754 double, decoding accepts and refuses the same byte strings as with exact numbers and delivers the same signals, satellites, carrier-to-noise ratios, lock times and ambiguity flags; pseudoranges and phase ranges differ from the exact values by at most 0.1 um, phase range rates by at most 1e-12 m/s, carriers by 1e-12 MHz; values of any two messages that differ exactly differ in doubles, in the same order.", "quantifier": "every byte string, every rounding to nearest (any rule for ties)", "why_tests_cant": "tests compare with a tolerance on sampled messages; the claim bounds the rounding error for all 2^40 ranges and excludes collisions of values", "anchors": ["sub_decoders/RTCM_MSM.py:SubdecoderMSM4567", "utilities/RTCM_utilities.py"]}
{"id": "C67", "title": "MARGO output in double precision", "statement": "With decoding and MARGO printing done in IEEE 754 doubles (every literal, conversion and operation rounded to nearest), the printer writes the same files as with exact numbers, with character-identical headers, one line for each row in the same order, exact times and NaN in the same columns; each value reads back within half a unit of the last printed decimal plus 0.1 um (ranges), 1e-5 cycles (phases), 1e-9 Hz (Doppler) of the exact value; the lines of carrier-to-noise ratios, lock times and flags are identical.", "quantifier": "every sequence of MSM messages, every rounding to nearest, every table of GLONASS channels of magnitude at most 1000", "why_tests_cant": "the error of chained floating point divisions is bounded for all inputs; tests compare samples with a tolerance", "anchors": ["printers/margo_printer.py:MargoCore", "printers/margo_printer.py:PrintMARGO", "sub_decoders/RTCM_MSM.py:SubdecoderMSM4567"]}
{"id": "C68", "title": "Base station data and ephemerides in double precision", "statement": "With every literal, conversion and operation rounded to a nearest IEEE 754 double, the same base station and ephemeris messages are decoded as with exact numbers; all ephemeris attributes but the two BeiDou group delays are exact; the exact value of every quantity is the multiple of its unit (0.1 mm, 0.1 s, 0.2 m, 0.1 ns) nearest to its double, so no code is lost; errors are at most 20 nm, 20 ps, 20 pm and 2^-51 of the value; the number of announcements computed with a float division is the integer quotient.", "quantifier": "every byte string (base station: of fewer than 2^40 bytes), every rounding to nearest (any rule for ties)", "why_tests_cant": "2^38 coordinate codes per axis; a lost or merged code would show up for single values only", "anchors": ["sub_decoders/RTCM_BASE.py:BaseStationDataDecoder", "sub_decoders/RTCM_EPH.py:EphemerisDecoder"]}
{"id": "C69", "title": "JSON output is unambiguous and JSON-B loses nothing", "statement": "A text denotes at most one JSON value. In mode JSON-B with header data enabled the file of a message number determines the messages with this number in the source, in order: two sources with the same output file have the same messages. (Violated for 1041: the NavIC signal health flags are not written, different sources give the same output.)", "quantifier": "every text; every two lists of well-formed accepted message contents of all kinds and sizes, every file system without failures", "why_tests_cant": "injectivity over all pairs of inputs; a member written under a wrong name or a value that is written the same for two codes goes unnoticed when outputs are only compared with stored ones", "anchors": ["printers/json_printer.py:JSONCore", "gnss_types/ephemeris.py:EphNAVIC", "gnss_types/observables.py:BareObservablesMSM4567"]}
{"id": "C70", "title": "A conversion that is reported as finished without errors is complete", "statement": "When calls that create folders or open files fail at arbitrary times, JSON conversion still ends regularly, of each message number only the first messages are missing, everything else is in well-formed files, and the number of printing errors is exactly the number of missing messages; so if the program reports that the conversion of a file finished without errors, every supported message in it was decoded and is in the output. (Violated by MARGO: failures to create files are not counted.)", "quantifier": "every byte string, every sequence of failures of the file system, every read chunk size", "why_tests_cant": "failures can occur at any of the calls; tests use a file system that works", "anchors": ["run_conversion.py:main", "run_conversion.py:decode_rtcm_file", "printers/json_printer.py:JSONCore", "printers/margo_printer.py:MargoCore", "printer_top.py:PrinterTop"]}
{"id": "C71", "title": "Configuration files mean what their text says, and are never ignored silently", "statement": "Every text of the ini format is read as exactly the sections and options that it lists, independently of delimiters, white space, comments, continuation lines, letter case of options and line ends; a second file overrides exactly the options it mentions; the shipped defaults.ini defines complete controls; and whatever the text of the second file is, the program either ends with an exception before it touches any file, or runs with controls that are completely defined by the configuration after both files.", "quantifier": "every text of either file, every document of the format, every enumeration order of the keys", "why_tests_cant": "the texts of configuration files are unbounded; whether a mistake in one is noticed needs all of them", "anchors": ["controls.py:ConverterControls.init_from_file", "controls.py:ConverterControls.update_from_file", "controls.py:ConverterControls._read_ini", "defaults.ini", "addons.ini", "run_conversion.py:main"]}
{"id": "C72", "title": "The log of a conversion tells what happened to every frame", "statement": "If a file is processed to its end, its log says, in stream order, for every frame whether its number is not supported, it was decoded, or decoding failed, and it has one error line per printing error; after each chunk a progress line states the number of bytes read so far, and its counters of messages, parsing errors and decoding errors are right about exactly that part of the file; the displayed percentage is correct to half a unit of its last digit and is 100.00% at the end.", "quantifier": "every stream, every chunk size, every mode and controls, every initial file system, every double rounding to nearest", "why_tests_cant": "the log depends on where chunk boundaries fall inside frames, on unbounded streams and on accumulated counters", "anchors": ["run_conversion.py:decode_rtcm_file", "decoder_top.py:DecoderTop.decode", "decoder_top.py:catch_decoder_exceptions", "printer_top.py:PrinterTop.print", "printer_top.py:catch_printer_asserts", "converter_top.py:Converter.get_statistics", "sub_decoders/RTCM_MSM.py:decode_msm17", "sub_decoders/RTCM_BASE.py:SubdecoderBaseStationData.decode", "sub_decoders/RTCM_EPH.py:SubdecoderEph.decode"]}
{"id": "C73", "title": "The last line of a log agrees with the lines before it", "statement": "The log of a file says 'Finished without errors' if and only if no line of it announces an error.", "quantifier": "every file content, every mode, every controls, every initial file system and every pattern of failing file system calls", "why_tests_cant": "needs all combinations of failures and contents; the counters that decide the last line are separate from the calls of the logger", "anchors": ["run_conversion.py:main", "run_conversion.py:decode_rtcm_file", "printers/margo_printer.py:PrintMARGO.__create_ofile", "printers/margo_printer.py:PrintMARGO.__append", "printer_top.py:PrinterTop.print"]}
{"id": "C74", "title": "The command line is accepted exactly if it has the documented form, and means what it says", "statement": "A command line is accepted if and only if it consists of options with values, a group of sources and again options, or of options, sources, '--' and further sources, with at least one source and only existing formats; then the sources are exactly the words that are neither options nor values of options, in order, and each setting has the last value given for it, or its default. The program ends with code 0 only if some word before '--' asks for help or version; such a word after proper options and sources is always obeyed unless an ambiguous word follows; every other command line is refused with code 2. A text of words between single blanks given to main means the same as the list of the words.", "quantifier": "every list of words (every command line), every text given to main", "why_tests_cant": "command lines are unbounded lists of arbitrary words; abbreviations, glued values, negative numbers, blanks and the placement of options interact", "anchors": ["run_conversion.py:create_argument_parser", "run_conversion.py:main", "DOCs/CommandLineArgs.md"]}
{"id": "C75", "title": "The program does what its command line asks, and nothing if it is refused", "statement": "With an accepted command line the program is the conversion of exactly the named sources with the named format, configuration file and extension, and a converter exists for the named format. With any other command line no file is read or written except the default configuration; the program ends with code 0 or 2, or with the exception that the default configuration causes.", "quantifier": "every command line, every configuration files, every initial file system, every behaviour of the file system", "why_tests_cant": "needs all command lines, including those no test author thought of; absence of effects cannot be observed by sampling", "anchors": ["run_conversion.py:main", "run_conversion.py:create_argument_parser", "converter_top.py:ConverterFactory"]}
{"id": "C76", "title": "From the command line to the files: the whole program", "statement": "If the command line names a format and existing source files with separate work folders, each source is a stream of encoded messages which the decoders accept (the others are those of C52, C59 and C64) mixed with noise and unsupported messages, the default configuration is the shipped one and the file system does not fail, then the program ends with every source converted without errors; the work folder of each source holds the JSON values or the MARGO rows, as the format asks, of exactly its messages, in order and in physical units (JSON-B: as integers), and, if the work folder is new or replaced, no other file but the log; no path outside of the work folders changes. With a further configuration file the program ends with an exception before it writes anything, or does the same with the controls that both files together describe.", "quantifier": "every accepted command line, every number of sources, every length of the sources, every message contents, noise and order, all formats, every initial content of the file system, every second configuration file", "why_tests_cant": "joins command line, configuration, selection of files, framing, decoding and printing for unbounded inputs; tests exercise single conversions of stored files", "anchors": ["run_conversion.py:main", "run_conversion.py:create_argument_parser", "run_conversion.py:decode_rtcm_file", "converter_top.py:ConverterFactory", "decoder_top.py:DecoderTop", "printer_top.py:PrinterTop", "controls.py:ConverterControls"]}
{"id": "C77", "title": "Nothing outside of the work folders changes, whatever happens", "statement": "The program changes no path except those in a folder next to a selected source whose name is the one of the source without its extension, a hyphen and the format: not for a wrong command line, a wrong configuration, damaged or missing sources, or a failing file system.", "quantifier": "every command line, all configuration files, all contents of the sources, every initial file system and every failure pattern of it", "why_tests_cant": "absence of effects over all paths, inputs and failures cannot be observed by sampling", "anchors": ["run_conversion.py:main", "run_conversion.py:create_work_folder", "printers/json_printer.py", "printers/margo_printer.py"]}
{"id": "C78", "title": "Source files survive the run", "statement": "No run deletes a source file; sources are converted from what they held when the program was started.", "quantifier": "every list of source files, every placement of them, every format, every failure pattern of the file system", "why_tests_cant": "depends on the placement of all source files relative to all work folders of the run, and on what existed before", "anchors": ["run_conversion.py:create_work_folder", "run_conversion.py:main"]}
{"id": "C79", "title": "make_opath tells where the products are", "statement": "For each source path in the form abspath returns, make_opath(path, number, format) names the work folder and the log file that the program uses for it; in the formats JSON and JSON-B the file it names holds, after a run over streams of convertible messages, the values of exactly the messages with this number; for numbers that the printer does not support it names a path at which the run leaves nothing.", "quantifier": "every source path, every message number, both JSON formats, every stream of contents", "why_tests_cant": "make_opath repeats the naming rules of three other modules; their agreement for all paths and numbers is not testable by sampling", "anchors": ["printers/json_printer.py:make_opath", "run_conversion.py:create_work_folder", "run_conversion.py:make_log_file_name"]}
{"id": "C80", "title": "The program in double precision behaves as the program in exact arithmetic", "statement": "The program whose operations on floats each round to a nearest IEEE double ends as the program with exact real arithmetic does, with the same exit code, exception or verdict per source, makes the same calls to the file system, leaves the same directories and files, and its files differ only in numbers, by rounding errors: decoded objects correspond as in C66 and C68, lines of MARGO files have the same time, the same missing values, and observables within the bounds of C67.", "quantifier": "every command line, every configuration with frequency channels up to 1000 in size, all bytes in the sources, every initial file system and every failure pattern of it, every rounding to nearest", "why_tests_cant": "needs all inputs and all operations at once; a branch that depends on a rounded value would show up for rare inputs only", "anchors": ["run_conversion.py:main", "sub_decoders/RTCM_MSM.py:SubdecoderMSM4567", "sub_decoders/RTCM_BASE.py", "sub_decoders/RTCM_EPH.py", "printers/margo_printer.py", "printers/json_printer.py"]}
{"id": "C81", "title": "The whole program in double precision delivers the contents of its sources", "statement": "With the configuration of the repository and with each operation on floats rounded to a nearest IEEE double, the program started with a format and source files that are streams of convertible messages, noise and unsupported messages finishes each file without errors; the JSON files of each work folder denote exactly the contents in order with each physical quantity within a fixed bound of its true value and everything else exact, the MARGO files show times exactly and observables within half a unit of the last decimal and the error of double precision, and there is nothing else in the work folder but the log. In format JSON-B the two programs are identical on all inputs.", "quantifier": "every command line of this form, every list of sources with separate work folders, every stream of contents, gaps and unsupported frames, every initial file system without failures, every rounding to nearest; for JSON-B every input, file system and failure pattern", "why_tests_cant": "requires the product of all contents, all streams and all roundings; a loss of precision in one field appears for rare codes only", "anchors": ["run_conversion.py:main", "sub_decoders/RTCM_MSM.py:SubdecoderMSM4567", "sub_decoders/RTCM_BASE.py", "sub_decoders/RTCM_EPH.py", "printers/margo_printer.py", "printers/json_printer.py"]}
{"id": "C82", "title": "A message that is refused does no harm to the others", "statement": "A source of well-formed messages, noise and unsupported messages is converted to the same files as the source without the noise, the unsupported messages and the messages that the decoders refuse, whatever fails in the file system. Exactly those messages are refused that meet a stated condition on their contents, each counts as exactly one decoding error, the file is reported as converted with errors if and only if there is one, and without failures of the file system the work folder has the products of the other messages, and nothing else but the log.", "quantifier": "every stream of well-formed contents, gaps and unsupported frames, every format, every initial file system, every failure pattern (first part), every list of sources", "why_tests_cant": "the effect of a refused message may depend on everything before and after it; requires all streams and all contents", "anchors": ["run_conversion.py:main", "run_conversion.py:decode_rtcm_file", "decoder_top.py:DecoderTop.decode", "converter_top.py:Converter"]}
{"id": "C83", "title": "Every lost observable is accounted for in the log", "statement": "The log of a file holds, in order, for each accepted multiple signal message one line for each rough or fine value marked as invalid that costs an observable, naming system, satellite and signal; every line is true of the message, no line is repeated, and an observable of a cell is missing from the decoded object if and only if a line accounts for it. For message 1230 there is one warning for each bias marked as undefined. There are no such lines for other messages, for refused messages and for bare MSM data, and none of them announces an error.", "quantifier": "every message of all MSM types and systems and of type 1230, every cell, every stream, every chunk size, every mode", "why_tests_cant": "requires all masks and all patterns of invalid markers; state carried from cell to cell shows up for particular orders of cells only", "anchors": ["sub_decoders/RTCM_MSM.py:_convert_obs47", "sub_decoders/RTCM_MSM.py:_convert_obs13", "sub_decoders/RTCM_BASE.py:__decode1230"]}
{"id": "C84", "title": "The test data grabber saves what its plan says and does not disturb decoding", "statement": "With the switch TEST_DATA_GRABBER set to EPH, BASE, MSM7 or MSM5, the file msgNNNN.rtcm3 of each message number of the plan holds after any sequence of messages exactly those messages with this number that follow the first `skip` of them, at most `keep`, in order and unchanged; it is created with the first of them, and no other file is touched. Each message is decoded and counted as without the switch, unless it has to be saved in a file that cannot be created: then the result is None and the message is not counted.", "quantifier": "every sequence of messages of any contents and length, every value of the switch, every directory, every set of files that cannot be created, every state of the decoder", "why_tests_cant": "the effect depends on the number of earlier messages of each number; requires all sequences", "anchors": ["tests/test_utilities.py:TestDataGrabber.save", "decoder_top.py:DecoderTop.decode"]}
{"id": "C85", "title": "The text of the bit readers computes the bits it is asked for", "statement": "Executing the text of Bits.getbitu, Bits.getbits, EphemerisDecoder.getbitS and Bits.revbitu (not a transcription of it) returns for each legal field the big-endian, two's complement, sign-magnitude value of the addressed bits, or their reversal, and raises ExceptionBitsError (ValueError for an empty sign-magnitude field) for each other field; nothing in the heap changes.", "quantifier": "every buffer, every offset and width (integers of any size), every class that inherits from Bits, every heap", "why_tests_cant": "needs all buffers and all positions; a test runs the text on samples, here the text itself is executed symbolically", "anchors": ["utilities/bits.py:Bits.getbitu", "utilities/bits.py:Bits.getbits", "utilities/bits.py:Bits.revbitu", "sub_decoders/RTCM_EPH.py:EphemerisDecoder.getbitS"]}
{"id": "C86", "title": "The text of the CRC computes the remainder by the generator polynomial", "statement": "Executing the text of CRC24Q.calc on any bytes returns, without exception, the number below 2^24 whose bits are the remainder of message * x^24 modulo the CRC-24Q generator over GF(2); for a valid frame this is the value of its last three bytes.", "quantifier": "every byte string of any length", "why_tests_cant": "needs all messages; wrong entries of the table show up for particular bytes at particular places only", "anchors": ["utilities/CRC24Q.py:CRC24Q.calc"]}
{"id": "C87", "title": "The text of the tables of RTCM_utilities agrees with the standard", "statement": "Executing the text of getSubset, unpack_tlock10, unpack_tlock4, isDF400_OK ... isDF406_OK, rnx_lit and crr_frq gives, for each argument, the entry of the message plan, the lock time of DF407/DF402, the validity of the code, the signal code and the carrier frequency of the specified tables.", "quantifier": "every integer as message number, every lock time code, every value of each field, every system and signal number", "why_tests_cant": "needs all arguments, including numbers that no table has", "anchors": ["utilities/RTCM_utilities.py:getSubset", "utilities/RTCM_utilities.py:MSMT"]}
{"id": "C88", "title": "The text of the ephemeris decoder builds the object that the message carries", "statement": "Executing the text of SubdecoderEph.decode on any bytes never raises and changes no existing object: it returns None or a new object. From a message that carries the fields of an ephemeris of type 1019, 1020, 1041, 1042, 1044, 1045 or 1046 it returns a new object whose named attributes are the integers of the fields, in scaled mode times the resolutions of the standard.", "quantifier": "every byte string, both modes, every heap with a sub-decoder in it, every ephemeris of every type", "why_tests_cant": "needs all values of all fields at once, and the effect on all other objects", "anchors": ["sub_decoders/RTCM_EPH.py:SubdecoderEph.decode", "sub_decoders/RTCM_EPH.py:EphemerisDecoder", "gnss_types/ephemeris.py"]}
{"id": "C89", "title": "The text of the message catcher returns the messages of the stream", "statement": "Executing the text of DecoderTop() and then of catch_message on any sequence of chunks never raises; the returned lists together are the messages of the stream, which are all valid frames and do not depend on how it is cut; a stream of valid frames is returned frame by frame without an error counted; otherwise parse_errors is the number of messages that discarded bytes separate from the one before; at most 1028 bytes are kept and no other object is changed.", "quantifier": "every sequence of chunks, every heap in which the object is created", "why_tests_cant": "needs all streams, all cuts, and the effect on all other objects", "anchors": ["decoder_top.py:DecoderTop.catch_message", "decoder_top.py:DecoderTop.__init__", "decoder_top.py:DecoderTop.parse_errors"]}
{"id": "C90", "title": "The text of the MSM decoder shows the transmitted integers of MSM4 to MSM7", "statement": "Executing the text of decode of the sub-decoders SubdecoderMSM4567 and SubdecoderMSM123 in bare mode on any bytes never raises and changes no existing object: it returns None or a new object. From a valid frame that carries an MSM4 ... MSM7 content it returns a new object whose named attributes (atr, hdr, sat, sgn) are the transmitted integers, and whatever object it returns for a valid frame shows the content that the frame carries.", "quantifier": "every byte string, every heap with a sub-decoder in it, every well-formed content of any masks", "why_tests_cant": "needs all masks with the widths they imply, all values of all fields, and the effect on all other objects", "anchors": ["sub_decoders/RTCM_MSM.py:SubdecoderMSM4567.decode", "sub_decoders/RTCM_MSM.py:decode_msm17", "sub_decoders/RTCM_MSM.py:BareObservablesMSM17Decoder", "gnss_types/observables.py"]}
{"id": "C91", "title": "The text of the MSM decoder shows the transmitted integers of MSM1 to MSM3", "statement": "Executing the text of decode of the MSM sub-decoders in bare mode on a valid frame that carries an MSM1, MSM2 or MSM3 content returns a new object whose named attributes are the transmitted integers.", "quantifier": "every well-formed content of any masks, every frame that carries it, every heap with a sub-decoder in it", "why_tests_cant": "needs all masks with the lengths they imply: the length check is wrong for some numbers of cells only", "anchors": ["sub_decoders/RTCM_MSM.py:SubdecoderMSM123.decode", "sub_decoders/RTCM_MSM.py:decode_msm17", "sub_decoders/RTCM_MSM.py:BareObservablesMSM17Decoder"]}
{"id": "C92", "title": "The text of the MSM decoder shows the observables of MSM4 to MSM7 in physical units", "statement": "Executing the text of decode of the sub-decoders SubdecoderMSM4567 and SubdecoderMSM123 in scaled mode on any bytes never raises and changes no existing object: it returns None or a new object. From a valid frame that carries an MSM4 ... MSM7 content whose signals have RINEX codes it returns a new object that shows the header, the carrier frequencies, the auxiliary data and, under the code of each signal and the number of each satellite, exactly the valid observables in physical units. If a signal has no RINEX code it returns None. Whatever object it returns for a valid frame belongs to a content that the frame carries.", "quantifier": "every byte string, every heap with a sub-decoder in it, every well-formed content of any masks", "why_tests_cant": "needs all masks, all values with their markers for invalid ones, and the effect on all other objects", "anchors": ["sub_decoders/RTCM_MSM.py:decode_msm17", "sub_decoders/RTCM_MSM.py:Bare2Scaled", "sub_decoders/RTCM_MSM.py:SubdecoderMSM4567.decode", "gnss_types/observables.py", "utilities/RTCM_utilities.py:MSMT"]}
{"id": "C93", "title": "The text of the MSM decoder shows the observables of MSM1 to MSM3 in physical units", "statement": "Executing the text of decode of the MSM sub-decoders in scaled mode on a valid frame that carries an MSM1, MSM2 or MSM3 content whose signals have RINEX codes returns a new object that shows the header and exactly the valid observables in physical units.", "quantifier": "every well-formed content of any masks, every frame that carries it, every heap with a sub-decoder in it", "why_tests_cant": "needs all masks and the markers for invalid values in every position: a marked pseudorange affects the phase ranges of later cells only", "anchors": ["sub_decoders/RTCM_MSM.py:SubdecoderMSM123.decode", "sub_decoders/RTCM_MSM.py:Bare2Scaled._convert_obs13", "sub_decoders/RTCM_MSM.py:decode_msm17"]}
{"id": "C94", "title": "The text of the base station decoder holds the transmitted fields, and raises only without a message number", "statement": "Executing the text of decode of SubdecoderBaseStationData: on any buffer of at least five bytes it never raises, in both modes, and changes no existing object; a shorter buffer raises ExceptionBitsError and changes nothing. In bare mode, from any buffer that carries a message 1005, 1006, 1007, 1008, 1013 with at least one announcement, 1029, 1033 or 1230 it returns a new object of the class of the message whose attributes, schedule and bias tables are the transmitted fields, texts in hexadecimal form. Any other buffer gives None.", "quantifier": "every byte string, every heap with a sub-decoder in it, every content of the eight messages", "why_tests_cant": "needs all contents with texts and lists of any length, every kind of damage, and the effect on all other objects", "anchors": ["sub_decoders/RTCM_BASE.py:SubdecoderBaseStationData.decode", "sub_decoders/RTCM_BASE.py:BaseStationDataDecoder", "gnss_types/base_station.py", "gnss_types/data_class_methods.py"]}
{"id": "C95", "title": "The text of the base station decoder shows the fields in physical units", "statement": "Executing the text of decode of SubdecoderBaseStationData in scaled mode: from any buffer that carries one of the eight messages, 1013 with at least one announcement, whose texts are not empty and are UTF-8, it returns a new object with flags as truth values, coordinates and height in metres, intervals in seconds, biases in metres, the quarter cycle indicator in words and the texts as characters. Any other buffer of at least five bytes gives None.", "quantifier": "every byte string, every heap with a sub-decoder in it, every content of the eight messages", "why_tests_cant": "needs all contents with texts of any length in any script, and lists of any length", "anchors": ["sub_decoders/RTCM_BASE.py:SubdecoderBaseStationData.decode", "sub_decoders/RTCM_BASE.py:BaseStationDataDecoder.scale", "gnss_types/base_station.py", "gnss_types/data_class_methods.py"]}
{"id": "C96", "title": "The text of a decoder put together as in the strategies never refuses a sub-decoder and cuts every stream into its messages", "statement": "The decoding part of every strategy of converter_top.py, executed in any heap, returns a new DecoderTop: no sub-decoder is refused and no existing object is changed. However the decoder is used afterwards (catch_message with any chunks and decode with any byte strings in any order, mixed with other code that leaves its objects alone), catch_message always ends without exception, changes only the decoder, and all that it has returned so far are exactly the messages of the stream fed so far in order; parse_errors is the number of messages that discarded bytes separate from the one before. A stream of valid frames cut in any way gives the frames and zero errors.", "quantifier": "both sets of messages, both modes, every heap, every sequence of calls with any arguments, every stream and every cut of it", "why_tests_cant": "needs all interleavings of calls with all arguments and the state of all objects", "anchors": ["decoder_top.py:DecoderTop", "decoder_top.py:DecoderTop.register_decoder", "decoder_top.py:DecoderTop.catch_message", "converter_top.py:168-181", "converter_top.py:140-147"]}
{"id": "C97", "title": "The text of decode of a decoder in use never raises, returns the declared class, and counts exactly", "statement": "Of a decoder put together as in the strategies and used in any way since, decode called with any byte string ends without exception and returns None or a new object of the class that is declared for the number of the message; no existing object is changed but for the two counters, and a message without a supported number changes nothing at all. dec_attempts is the number of supported messages given to decode so far and dec_errors the number of those for which it has returned None.", "quantifier": "both sets of messages, both modes, every heap, every sequence of calls with any arguments, every byte string", "why_tests_cant": "needs every byte string after every history, and the effect on all other objects", "anchors": ["decoder_top.py:DecoderTop.decode", "decoder_top.py:DecoderTop.dec_attempts", "decoder_top.py:DecoderTop.dec_errors", "decoder_top.py:SubDecoderInterface", "sub_decoders/RTCM_MSM.py", "sub_decoders/RTCM_EPH.py", "sub_decoders/RTCM_BASE.py"]}
{"id": "C98", "title": "From the text of the strategies to the attributes: MSM4 to MSM7", "statement": "Of a decoder put together as in the strategies and used in any way since, decode of any valid frame that carries an MSM4, MSM5, MSM6 or MSM7 content returns a new object whose attributes are the transmitted integers (bare mode) or the header and the valid observables in physical units (scaled mode, all signals with RINEX codes; otherwise None). Conversely, whatever is returned for a valid frame with the number of a multiple signal message shows a content that the frame carries.", "quantifier": "both sets of messages, every history of the decoder, every content with any masks, every frame that carries it", "why_tests_cant": "needs all masks and values after every history of calls", "anchors": ["decoder_top.py:DecoderTop.decode", "sub_decoders/RTCM_MSM.py:SubdecoderMSM4567.decode", "converter_top.py:168-181"]}
{"id": "C99", "title": "From the text of the strategies to the attributes: base station data", "statement": "Of a decoder with all messages, put together as in the strategies and used in any way since, decode of any buffer that carries one of the eight base station messages (1013 with at least one announcement) returns a new object of its class that holds the transmitted fields (bare mode) or the fields in physical units (scaled mode, texts not empty and UTF-8). Any other buffer with the number of such a message gives None.", "quantifier": "both modes, every history of the decoder, every content of the eight messages, every byte string", "why_tests_cant": "needs all contents with texts and lists of any length after every history of calls", "anchors": ["decoder_top.py:DecoderTop.decode", "sub_decoders/RTCM_BASE.py:SubdecoderBaseStationData.decode", "converter_top.py:168-181"]}
{"id": "C100", "title": "From the text of the strategies to the attributes: ephemerides and MSM1 to MSM3", "statement": "Of a decoder put together as in the strategies and used in any way since, decode of any message that carries an ephemeris returns a new object whose named attributes are the transmitted integers or their scaled values; decode of any valid frame that carries an MSM1, MSM2 or MSM3 content returns a new object that shows the transmitted integers or the valid observables in physical units.", "quantifier": "both modes, every history of the decoder, every ephemeris of the eight types, every content with any masks, every message that carries it", "why_tests_cant": "needs all field values and all masks after every history of calls", "anchors": ["decoder_top.py:DecoderTop.decode", "sub_decoders/RTCM_EPH.py:SubdecoderEph.decode", "sub_decoders/RTCM_MSM.py:SubdecoderMSM123.decode", "converter_top.py:168-181"]}
{"id": "C101", "title": "The text of the MSM decoder, executed in double precision, shows the observables near their values: MSM4 to MSM7", "statement": "Executing the text of decode of the MSM sub-decoders in scaled mode with every float literal, conversion and operation rounded to a nearest double: from a valid frame that carries an MSM4, MSM5, MSM6 or MSM7 content whose signals have RINEX codes it returns a new object that has a value exactly where the content has a valid observable, pseudoranges and phase ranges within 0.1 micrometre of the exact value, rates within 1e-12 m/s, carrier frequencies within 1e-12 MHz, and carrier to noise ratios, lock times, flags and header exactly. A signal without RINEX code gives None; whatever is returned for a valid frame shows a content that the frame carries.", "quantifier": "every rounding to nearest whatever it does with ties, every well-formed content of any masks, every frame that carries it, every heap with a sub-decoder in it", "why_tests_cant": "the error of a computation depends on all values in it; no set of samples bounds it for all masks and all values", "anchors": ["sub_decoders/RTCM_MSM.py:decode_msm17", "sub_decoders/RTCM_MSM.py:Bare2Scaled", "sub_decoders/RTCM_MSM.py:SubdecoderMSM4567.decode", "utilities/RTCM_utilities.py:MSMT"]}
{"id": "C102", "title": "The text of the ephemeris decoder, executed in double precision, holds the exact scaled values", "statement": "Executing the text of decode of SubdecoderEph in scaled mode in double precision on any buffer that carries an ephemeris returns a new object whose named attributes are the transmitted integers times the resolutions of the standard: exactly, but for the two group delays of BeiDou, whose relative error is at most 2^-51.", "quantifier": "every rounding to nearest, every ephemeris of the eight types, every buffer that carries it, every heap with a sub-decoder in it", "why_tests_cant": "needs all values of all fields: one field whose scaled value is no double would be rounded for some values only", "anchors": ["sub_decoders/RTCM_EPH.py:SubdecoderEph.decode", "sub_decoders/RTCM_EPH.py:EphemerisDecoder.scale"]}
{"id": "C103", "title": "The text of the base station decoder, executed in double precision, holds the fields near their values", "statement": "Executing the text of decode of SubdecoderBaseStationData in double precision: in scaled mode, from any buffer that carries one of the eight messages (1013 with at least one announcement, texts not empty and UTF-8), it returns a new object with coordinates and height within 20 nanometres, intervals within 20 picoseconds, biases within 20 picometres, and all else exactly. Any other buffer of at least five and less than 2^40 bytes gives None, in both modes.", "quantifier": "every rounding to nearest, every content of the eight messages, every byte string below 2^40 bytes, every heap with a sub-decoder in it", "why_tests_cant": "needs all contents; the number of announcements is the integer part of a rounded quotient, which can be wrong for one length only", "anchors": ["sub_decoders/RTCM_BASE.py:SubdecoderBaseStationData.decode", "sub_decoders/RTCM_BASE.py:BaseStationDataDecoder.scale", "sub_decoders/RTCM_BASE.py:BaseStationDataDecoder.__decode1013"]}
{"id": "C104", "title": "From the text of the strategies to the attributes in double precision: MSM4 to MSM7 and base station data", "statement": "A decoder put together as in the strategies and used in any way since, executed in double precision in scaled mode, delivers for every valid frame with an MSM4 to MSM7 content whose signals have RINEX codes, and for every buffer with a base station message (1013 with announcements, texts not empty and UTF-8), a new object with the values of C101 and C103, and refuses the other messages with such a number (base station data: below 2^40 bytes).", "quantifier": "every rounding to nearest, both sets of messages, every history of the decoder, every content, every message that carries it", "why_tests_cant": "needs all contents after every history of calls, and the error bound for all values", "anchors": ["decoder_top.py:DecoderTop.decode", "sub_decoders/RTCM_MSM.py:SubdecoderMSM4567.decode", "sub_decoders/RTCM_BASE.py:SubdecoderBaseStationData.decode", "converter_top.py:168-181"]}
{"id": "C105", "title": "From the text of the strategies to the attributes in double precision: ephemerides and MSM1 to MSM3", "statement": "A decoder put together as in the strategies and used in any way since, executed in double precision in scaled mode, delivers for every message with an ephemeris a new object with the values of C102, and for every valid frame with an MSM1, MSM2 or MSM3 content whose signals have RINEX codes a new object that shows exactly the valid observables, ranges within 0.1 micrometre.", "quantifier": "every rounding to nearest, every history of the decoder, every ephemeris of the eight types, every content with any masks, every message that carries it", "why_tests_cant": "needs all field values and all masks after every history of calls, and the error bound for all values", "anchors": ["decoder_top.py:DecoderTop.decode", "sub_decoders/RTCM_EPH.py:SubdecoderEph.decode", "sub_decoders/RTCM_MSM.py:SubdecoderMSM123.decode", "sub_decoders/RTCM_MSM.py:Bare2Scaled._convert_obs13", "converter_top.py:168-181"]}
{"id": "C106", "title": "The text of the JSON serialiser: what is written for the objects that a decoder delivers", "statement": "For the frame of every well-formed content a decoder put together as in the strategies with all messages, and used in any way since, delivers an object; the function of JSONCore that PrintJSON calls for its class, executed in any later heap in which the object is as it was and with any setting of the three controls, changes nothing, raises nothing and returns a text that is JSON for the value with all fields of the content: as transmitted in bare mode, in physical units (exact arithmetic) or within the tolerances of each member (double precision) in scaled mode; header and auxiliary data exactly if enabled, indented exactly if pretty view is enabled. JSONCore(controls) keeps the controls, JSONCore() has all of them off.", "quantifier": "every history of the decoder, every well-formed content, every setting of the controls, every later heap, every way of writing floats as JSON numbers, every rounding to nearest in double precision", "why_tests_cant": "needs all contents after every history of calls, and a JSON grammar to judge the text", "anchors": ["printers/json_printer.py:JSONCore.__init__", "printers/json_printer.py:JSONCore.ObservablesMSMtoPrintBuffer", "printers/json_printer.py:JSONCore.BareObservablesMSMtoPrintBuffer", "printers/json_printer.py:JSONCore.dataClassToPrintBuffer", "decoder_top.py:DecoderTop.decode"]}
{"id": "C107", "title": "The text from the bytes of a file to JSON texts: whole conversions", "statement": "A decoder put together as in the strategies and a JSONCore with any setting of its controls are given the bytes of a file, cut into chunks in any way: catch_message of each chunk, decode of each message, and the serialising function of each object that is returned. Whatever the bytes, this ends without an exception and with one result, all texts are JSON, dec_attempts is the number of supported messages of the stream, and every one of them is either written or counted by dec_errors. If the stream is frames of well-formed contents among noise without the sync byte and valid frames of other messages, there is exactly one text per content, in order, and it is JSON for the content: as transmitted, in physical units, or within the tolerances in double precision; no error is counted but the runs of noise.", "quantifier": "every stream, every cut into chunks, every list of contents and noise, every setting of the controls, every arithmetic of floats (bare mode and totality), every rounding to nearest (double precision)", "why_tests_cant": "no test covers all streams in all cuts; the result of one call depends on all calls before", "anchors": ["run_conversion.py:decode_rtcm_file", "decoder_top.py:DecoderTop.catch_message", "decoder_top.py:DecoderTop.decode", "printers/json_printer.py:JSONCore", "converter_top.py:Converter.parse_bytes", "converter_top.py:Converter.decode"]}
{"id": "C108", "title": "The text of the MARGO printer: the rows for the MSM4 to MSM7 messages that a decoder delivers", "statement": "For every valid frame with an MSM4 to MSM7 content whose signals have RINEX codes a decoder put together as in the strategies in scaled mode, and used in any way since, delivers an object; MargoCore.ObservablesMSMtoPrintBuffer, executed in any later heap in which the object is as it was and with any controls (GLONASS: with a channel for each satellite), changes nothing, raises nothing and returns a dictionary with exactly one entry per printed kind of observable and signal, in order: under the name of the file the GPS time of week in ms and one column per satellite of the constellation, which is the range in m, the phase in cycles, the Doppler in Hz, the carrier to noise ratio, the lock time in s or the half-cycle flag, and the text NaN where there is no value or where the phase is ambiguous and half-cycle output is off. Exactly so in exact arithmetic; in double precision each number is within the tolerance of its kind and NaN is in the same columns. MargoCore(controls) keeps the controls, MargoControls() has both outputs off, 18 s, and the table of the 24 GLONASS channels.", "quantifier": "every history of the decoder, every content with any masks and values, every message that carries it, every setting of the controls, every later heap, every rounding to nearest in double precision", "why_tests_cant": "needs all masks and values under all controls after every history of calls, and the error bound for all values", "anchors": ["printers/margo_printer.py:MargoControls.__init__", "printers/margo_printer.py:MargoCore.__init__", "printers/margo_printer.py:MargoCore.ObservablesMSMtoPrintBuffer", "printers/margo_printer.py:MargoCore.conv_to_gps_time", "printers/margo_printer.py:MargoCore.make_lambdas", "printers/margo_printer.py:MargoCore.make_obs_file_name", "decoder_top.py:DecoderTop.decode"]}
{"id": "C109", "title": "The text of the MARGO printer: no observable of a delivered message is lost", "statement": "Each pseudorange, each phase range without half-cycle ambiguity, each phase range rate and each carrier to noise ratio of a delivered MSM message is in the dictionary that MargoCore.ObservablesMSMtoPrintBuffer returns, under the name of its kind, signal and message type, in the column of its satellite; for MSM1 to MSM7, every constellation and every satellite of the mask.", "quantifier": "every history of the decoder, every content, every satellite number 1 to 64, every signal, every setting of the controls", "why_tests_cant": "a test with the satellites at hand does not see the numbers that have no column", "anchors": ["printers/margo_printer.py:MargoCore.ObservablesMSMtoPrintBuffer", "printers/margo_printer.py:MargoCore.MAX_SATS", "decoder_top.py:DecoderTop.decode"]}
{"id": "C110", "title": "The text from the bytes of a file to MARGO rows: whole conversions", "statement": "A decoder put together as in the MARGO strategy and a MargoCore with any controls (if there are GLONASS messages: with a channel for each satellite) are given the bytes of a file, cut into chunks in any way: catch_message of each chunk, decode of each message, and ObservablesMSMtoPrintBuffer of each object that is returned. If the stream is frames of well-formed contents among noise without the sync byte and valid frames of other messages, and its observation messages are MSM4 to MSM7 whose signals have RINEX codes, this ends without an exception and with one result: exactly one dictionary per observation message, in order, with exactly the rows of that message (numbers within the tolerance of their kind in double precision), and no later call changes the rows of an earlier one; station descriptions and ephemerides leave no rows; dec_attempts is the number of observation messages, dec_errors is 0, and parse_errors is the number of messages after the first that noise precedes.", "quantifier": "every list of contents, noise and other frames, every cut into chunks, every setting of the controls, exact arithmetic and every rounding to nearest in double precision", "why_tests_cant": "no test covers all files in all cuts; the result of one call depends on all calls before, and lists shared by rows would be seen only later", "anchors": ["run_conversion.py:decode_rtcm_file", "decoder_top.py:DecoderTop.catch_message", "decoder_top.py:DecoderTop.decode", "printers/margo_printer.py:MargoCore.ObservablesMSMtoPrintBuffer", "converter_top.py:Converter.parse_bytes", "converter_top.py:Converter.decode"]}
{"id": "C111", "title": "The text from the bytes of a file to MARGO rows: any bytes", "statement": "A decoder put together as in the MARGO strategy and a MargoCore whose controls have a channel for each GLONASS satellite are given any bytes, cut into chunks in any way, as in C110. This ends without an exception and with one result. In the order of the messages of the stream, each observation message (MSM) gives one dictionary or is counted as an error: dec_attempts is the number of observation messages of the stream and dec_errors is that number less the number of dictionaries; parse_errors is the number of gaps between messages that hold other bytes. A message gives a dictionary if and only if it carries a content whose signals have RINEX codes and (MSM2 and MSM3) whose length the decoder does not take for wrong (C22). Each dictionary has exactly the rows of the content that its message carries (for MSM3 with a fine pseudorange marked invalid: of an object with the header and message type of that content); numbers within the tolerance of their kind in double precision.", "quantifier": "every sequence of bytes, every cut into chunks, every setting of the controls with all GLONASS channels, exact arithmetic and every rounding to nearest in double precision", "why_tests_cant": "no test covers all byte sequences; a message that stops the conversion or is printed with the rows of another would need the right bytes", "anchors": ["run_conversion.py:decode_rtcm_file", "decoder_top.py:DecoderTop.catch_message", "decoder_top.py:DecoderTop.decode", "decoder_top.py:DecoderTop.dec_errors", "printers/margo_printer.py:MargoCore.ObservablesMSMtoPrintBuffer", "converter_top.py:Converter.parse_bytes", "converter_top.py:Converter.decode"]}
{"id": "C112", "title": "The text from the bytes of a file to its output: the cut into chunks does not matter", "statement": "Two conversions of the same bytes, cut into chunks in two ways, by two decoders put together alike with printers of the same controls, in heaps that hold anything else: JSON, in every mode and every arithmetic of floats: the lists of texts are equal. MARGO (with a channel for each GLONASS satellite), in exact arithmetic and in double precision: there are equally many dictionaries, in order, with the same names in the same order and lists of the same elements. dec_attempts, dec_errors and parse_errors are the same.", "quantifier": "every sequence of bytes, every two cuts into chunks, every two heaps, every setting of the controls, every rounding", "why_tests_cant": "relates two runs over all byte sequences and all pairs of cuts; a cut inside a header or a checksum is one of very many", "anchors": ["run_conversion.py:decode_rtcm_file", "decoder_top.py:DecoderTop.catch_message", "decoder_top.py:DecoderTop.decode", "printers/json_printer.py:JSONCore", "printers/margo_printer.py:MargoCore.ObservablesMSMtoPrintBuffer"]}
{"id": "C113", "title": "The text from any bytes to JSON: what is written is carried by the message", "statement": "Whatever the bytes of the file and however they are cut into chunks, the embedded text of a conversion to JSON comes to an end with one result: the texts are, in the order of the messages, one for each message that is kept, a message is kept if and only if it carries a content that is delivered in the mode (not 1044, not an empty schedule, no MSM2 or MSM3 whose length the decoder takes for wrong; in physical units texts are UTF-8 and not empty, and signals have RINEX codes), and each is JSON for a content that this message carries (its fields, read from the bits of the message, are what the members hold): as transmitted integers (in exact arithmetic and in double precision), in physical units in exact arithmetic, and in double precision within the tolerance of each member. A message carries at most one content, and the frame of a content carries it. Kept messages are of supported types; dec_errors counts the other supported messages. Exempt from the second half (they are still JSON): a schedule that announces a message twice and, in physical units, MSM3 with a fine pseudorange marked invalid.", "quantifier": "every sequence of bytes, every cut into chunks, every setting of the printer controls, every heap, every rounding to nearest", "why_tests_cant": "soundness over all byte sequences: also for frames that no encoder of valid contents makes, with any trailing bits, any length and any values of the fields", "anchors": ["run_conversion.py:decode_rtcm_file", "decoder_top.py:DecoderTop.decode", "sub_decoders/RTCM_MSM.py:SubdecoderMSM4567.decode", "sub_decoders/RTCM_MSM.py:SubdecoderMSM123.decode", "sub_decoders/RTCM_EPH.py:SubdecoderEph.decode", "sub_decoders/RTCM_BASE.py:SubdecoderBaseStationData.decode", "printers/json_printer.py:JSONCore"]}
{"id": "C114", "title": "The text from any bytes to JSON: different contents are never written as the same text", "statement": "Two conversions by the embedded text to JSON as transmitted integers with header data, of any bytes, cut in any way, in any heaps, indented or not: if the texts of the one have the same characters as the texts of the other, then as many messages have been written (those that carry an accepted content, see C113), and the messages in the same places carry the same content if they have the same number (they have in the files of the program, which are one for each number). Exempt: 1041, of which not all fields are written (C69), and schedules that announce a message twice.", "quantifier": "every two sequences of bytes, every cut into chunks, every two heaps, with and without indent and auxiliary data, every way to write floats, exact arithmetic and every rounding to nearest in double precision", "why_tests_cant": "injectivity over all pairs of byte sequences, also those that no encoder makes; comparing outputs with stored outputs cannot show that two other inputs differ in the output", "anchors": ["run_conversion.py:decode_rtcm_file", "decoder_top.py:DecoderTop.decode", "sub_decoders/RTCM_MSM.py:SubdecoderMSM4567.decode", "sub_decoders/RTCM_MSM.py:SubdecoderMSM123.decode", "sub_decoders/RTCM_EPH.py:SubdecoderEph.decode", "sub_decoders/RTCM_BASE.py:SubdecoderBaseStationData.decode", "printers/json_printer.py:JSONCore"]}
