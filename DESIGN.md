# Formal model of GNSS_RTCM_DECODER

Lean 4.33.0 + Mathlib. Lake project in `lean/`, modules under `lean/Verif/`, build with `lake build` in `lean/`.

## Layout

* `Verif/Model/*` – the code, function by function; each definition cites file and lines in /repo.
* `Verif/Spec/*` – small specifications that are written against the RTCM standard, the JSON grammar or plain arithmetic, not
  against the code (see "Specifications"). They do not import `Verif/Model` except for the plain data records and `Txt`.
* `Verif/Lemmas/*` – helper lemmas.
* `Verif/PyCore/*` – syntax and meaning of the part of Python that the decoders use: values, a heap of objects, classes, attributes,
  exceptions, loops, calls with fuel (`Semantics`), and the rules for executing text symbolically (`Rules`). Independent of /repo.
* `Verif/Source/*` – the text of twelve modules of /repo in this syntax, generated statement by statement by `fidelity/embed.py`
  (`embed.py --check` compares); each definition cites file and lines.
* `Verif/Refine/*` – proofs that executing the text of a function gives what the function of `Verif/Model` gives.
* `Verif/Props/*` – the property theorems, named after the property ids of `properties.jsonl`, with `example`s showing that the
  hypotheses are met by concrete non-trivial cases.

A property the code violates has a theorem `Cxx_violated` (the negation, proved) and a theorem `Cxx_partial` (what holds), and is
`partial` in MANIFEST.json.

## Trusted base

* The Lean 4 kernel.
* Axioms: at most `propext`, `Classical.choice`, `Quot.sound`; see the list at the end. No own axioms, no `sorry`, no
  `native_decide`, no `bv_decide`. Whole finite tables are evaluated by `decide +kernel`, i.e. by the kernel.
* That the definitions in `Verif/Model` are a faithful reading of the Python text. The Python interpreter and its library are not
  verified; where a library function matters it is modelled by a small definition next to its use (see "Library functions").
  `fidelity/replay.py` tests the reading: it runs the model (double precision, `Spec.ieee`) on the sample files of the repository and
  compares products and logs with the reference products that the repository brings along: 177 comparisons, no difference. It is no part of the
  proofs and not needed for the build.

* For C85 and later properties about the text: instead of the reading by hand, the translation of syntax by `fidelity/embed.py` (its
  rewritings are listed at its top) and the meaning of Python given in `Verif/PyCore/Semantics`. Where the refinement is proved, the
  functions of `Verif/Model` are not trusted any more: they are proved to agree with the text. So far: bits.py, CRC24Q.py,
  RTCM_utilities.py, RTCM_EPH.py, RTCM_MSM.py, RTCM_BASE.py and decoder_top.py as a whole; of json_printer.py `JSONControls` and `JSONCore` without `is_json_dataclass` (not `JSON_SPEC` and `PrintJSON`, which write files); of margo_printer.py `MargoControls` and `MargoCore` without `make_header` and `format_obs_string` (not `PrintMARGO`, which writes files; `_DEFAULT_CONTROLS`, a call in the class body, is not executed, so that `MargoCore(None)` is not covered). `json.dumps` returns a value that stands for the text `Json.dumps fr indent tree` of its argument; the tree is read from the heap (`jsonVal`), `dataclasses.asdict` copies the fields of the class in order (`asDict`), `__slots__` and `getattr` with a text are those of Python. Of converter_top.py, the statements of the four strategies up to the registration of the printers, with `conv.decoder` as a variable (`Source/ConverterTop`). Simplifications of the semantics: floats are rationals, and a rounding is applied to every float literal,
  every conversion of an integer and every result of a float operation (`Rounding`; theorems are for every rounding, for none (`exactArith`) or for every rounding to nearest doubles (`doubleArith`), without overflow, infinities and negative zero; a negative power of an integer is the rounded exact power), the text of
  formatted strings and what is sent to the logger are not computed, a lazily evaluated generator is a list (all generators of the code are
  consumed at once), identity of immutable values is equality, exceptions carry their class only, recursion depth and memory are unlimited. A construct that the semantics does not know is `stuck`, which is
  no outcome that a theorem allows.

## What is modelled

| code | module | simplifications |
|------|--------|-----------------|
| utilities/bits.py | Model/Bits | – |
| utilities/CRC24Q.py | Model/CRC24Q | – |
| utilities/RTCM_utilities.py | Model/RtcmUtil | decimal factors are exact rationals |
| decoder_top.py:34-218, 326-334 (sub-decoder interface, registration, `decode`, counters) | Model/Decoder | `TestDataGrabber` is disabled by a constant; see the next line |
| tests/test_utilities.py:69-186 and decoder_top.py:166-168, 201-202 (`TestDataGrabber`) | Model/Grabber | a file can be opened always or never; `write` on an open file does not fail |
| decoder_top.py:220-325 (`catch_message`, `mlen`, `mnum`, `mcrc`, resynchronisation) | Model/Framer | – |
| sub_decoders/RTCM_MSM.py | Model/Msm, Model/MsmTypes | a fresh object is filled per message |
| sub_decoders/RTCM_EPH.py, gnss_types/ephemeris.py | Model/Eph, Model/EphTypes | – |
| sub_decoders/RTCM_BASE.py, gnss_types/base_station.py | Model/Base, Model/BaseTypes, Model/PyStr | `int(s,16)` only as applied to results of `hex` |
| gnss_types/observables.py | Model/MsmTypes | – |
| gnss_types/data_class_methods.py:47-126 (`compare`) | Model/Compare | values are trees; floats exact, with nan and infinities |
| printer_top.py | Model/Converter | a `set` of printers is a list; C39_order shows the order is irrelevant |
| printers/json_printer.py | Model/JsonPrinter, Model/PyVal (json.dumps), Model/Opath (`make_opath`) | `float.__repr__` is a parameter `fr` of which the theorems assume only that it yields JSON numbers |
| printers/margo_printer.py | Model/MargoPrinter, Model/Text (float formatting); Model/MargoDouble (the same in doubles) | a Doppler of zero is printed as `-0.000` (Cell.negZero); no other value can be a negative zero |
| converter_top.py | Model/Converter | – |
| controls.py, and the parts of `configparser` that it uses | Model/Controls, Model/IniText (text format) | ASCII white space and letters only; a file that is no UTF-8 text counts as one with errors |
| logger.py, run_conversion.py | Model/Run, Model/Controls (`main`), Model/Args (`create_argument_parser`, `main` with its arguments; `parse_args` modelled after argparse.py of Python 3.11: only what these five options and one positional need, texts of help and error messages left out, `sys.argv` given as a list of words, digits of negative numbers are ASCII), Model/Log and Model/Details (records sent to the logger and their texts), Model/Sources (sources deleted with a work folder) | console output, texts of exceptions, `KeyboardInterrupt` not modelled |

Not modelled: `tests/`, `test_run_conversion.py`, `copy`/`deepcopy`/`items`/
`len` of `DataClassMethods`, `_ObservablesAuxLeg`, `_make_example` (never called).

### Conventions

* `bytes` = `List UInt8`; `int` = `Nat` or `Int`; exceptions are values: `Py α = Except PyErr α`. Functions with `while` loops that
  need not end are in `PyD α = ExceptT PyErr Option α` and defined by `partial_fixpoint` (`none` = does not return), so that
  termination is a theorem (C09) and not an assumption.
* Objects with state are structures, methods are functions `state → args → state × result`.
* `dict` = association list with Python's insertion order (`PyDict`).
* `float`: exact rational. Integer × 2^-k is exact in IEEE doubles too. The rounding of the MSM scaling (299792.458, 0.0001, carriers) is
  modelled separately in Model/MsmDouble: the same functions with a rounding at every literal, conversion and operation; C66 bounds the
  difference. Model/MargoDouble does the same for the MARGO printer (C67), Model/BaseDouble and Model/EphDouble for base station data and
  ephemerides (C68), Model/RunDouble joins them to the program in double precision (C80). The upper limit of the exponent is not modelled; the bounds show that all values stay far below it.
* File system = `Disk`: directories, contents by path, and a fault oracle: which of the calls of `makedirs`, `rmtree`, `open` fail is
  an arbitrary function of the number of the call. Writing to an open file succeeds; buffering and line end translation are not
  modelled; paths are compared as texts (`..` and links are not interpreted); source files are not changed by the run, except in Model/Sources, where `rmtree` deletes those in the folder
  (C78_agree: both models agree unless a source lies in a work folder).

### Library functions

`str.strip`, `split`, `hex`, `int(text)` (ASCII), `int(text,16)`, `bytes.decode("utf-8")` (Lean's `String.fromUTF8?`), `json.dumps`,
`f"{x:w.pf}"`, `os.path.join`, `splitext`, `split`, `glob` (uninterpreted), `isfile`/`isdir`/`abspath` of the shell (uninterpreted),
`ConfigParser.read` (whole text format of Python 3.11 with the default settings), `get` with interpolation, `getint`, `getboolean`, `sections`
(compared with the library on 2200 generated pairs of texts by a script, without differences), `dataclasses.asdict`, `itertools.zip_longest`.

## Specifications

* Bits, CRC, CRCPoly, Frame, Scan: bit strings, CRC as polynomial remainder over GF(2), RTCM frames, an abstract stream scanner.
* Layout, Pack, Msm, MsmObj, MsmScaled, Eph, EphNames, Base, BaseObj, Message: field layouts of the standard as encoders (lists of
  width and value); the decoded object as a function of the transmitted values.
* Signals: signal codes and carriers. Decoder: supported messages per mode.
* Json, JsonVal: JSON grammar as a relation `JsonText value text`. ContentJson: JSON values, files and class names for the contents of
  messages, from the transmitted values. Margo, MargoText, ReadText: rows, and reading the text back.
* Select, Controls, Compare, Paths: selection of files, configuration, comparison, containment of paths.

## Plan and result per property

| id | what is modelled and how it is proved | result |
|----|---------------------------------------|--------|
| C01 | `catch_message`/`__rebase_to_D3` with its state; refinement to the abstract scanner, induction over chunks | proved |
| C02 | same invariant, error counter | proved |
| C03 | soundness of the scanner | proved |
| C04 | the scanner returns a segmentation of the stream | proved |
| C05 | scanner on concatenated frames | proved |
| C06 | scanner on frames with D3-free noise | proved |
| C07 | position argument: no valid frame outside of others is lost | proved |
| C08 | invariant on the retained tail | proved |
| C09 | all calls return (`partial_fixpoint`, so a theorem) and raise nothing | proved |
| C10 | gaps of the segmentation against the error counter | proved |
| C11 | the 256 table entries in the kernel, lifted by linearity and induction to the polynomial remainder | proved |
| C12 | linearity and invertibility of the shift register | proved |
| C13 | (x+1) divides the generator; order of x exceeds the frame length (whole orbit in the kernel) | proved |
| C14–C16 | loops over bytes and bits against bit lists | proved |
| C17–C19 | registration in all four strategies, `DecoderTop.decode`, counters | proved |
| C20 | message number tables | proved |
| C21 | MSM4–7 as encoder; sequential reader lemma | proved |
| C22 | MSM1–3 | violated: length estimate 28/43 instead of 27/42 bits per cell, so MSM2/3 with ≥ 8 cells are always rejected; MSM1 and sizes for which rounding hides the error proved |
| C23 | empty satellite mask | violated: `(len-3)*8 < 169` rejects every such frame |
| C24 | loops over slots against ranks of cells in the masks | proved |
| C25 | scaled MSM1–3 | violated for MSM3: `ph_ok` stays false for later cells; the exact result proved in all cases |
| C26–C28 | markers, unknown signals, lock time tables | proved |
| C29, C56 | signal tables (whole tables in the kernel) | proved |
| C30 | ephemerides: encoder, sequential reader, exact acceptance condition | proved |
| C31 | 1044 | violated: offset advanced by 8 instead of 10, decoding fails for every buffer |
| C32 | scaling per field | proved |
| C33, C37 | 1005, 1006, 1230 | proved |
| C34, C35 | texts (1007, 1008, 1033, 1029) | violated for empty texts in scaled mode; proved otherwise |
| C36 | 1013 | violated for 0 announcements; proved otherwise |
| C38 | bare and scaled accept the same messages | violated by empty and non-UTF-8 texts; exact condition proved |
| C39 | printer state machine, all orders of printers | proved |
| C40, C42–C44, C57 | MARGO rows, time, units, files, and reading the text back | proved |
| C41 | every satellite has a column | violated above MAX_SATS; proved otherwise |
| C45, C46 | JSON files: grammar, one file per message number | proved |
| C47 | configuration as state machine over parsed ini files | proved (with the hazards listed below) |
| C48 | verdict | violated: parsing errors are not looked at; proved for the others |
| C49 | work folders | violated: `x.a` and `x.b` share one folder; frame theorem and separation proved |
| C50 | logger state over all outcomes | proved |
| C51 | chunk size | proved |
| C52 | stream of contents to JSON-B files, end to end | violated by the contents the decoders refuse; proved for all others |
| C53 | comparison | violated for negative floats (`math.fabs(B > f_tolerance)`); exact result proved |
| C54 | selection of source files | proved |
| C55 | JSON holds all fields | violated for 1041 (two attributes without annotation); proved otherwise |
| C58 | a dropped row is reported | violated for MARGO; proved for JSON |
| C59, C60 | scaled JSON end to end; noise in the stream | C59 proved for what scaled decoding delivers; C60 proved |
| C61 | a file among others is converted as if alone (non-interference on the file system) | proved |
| C62 | the loop over files terminates with a fitting verdict per file for all bytes and all failures (totality of decoders and printers on what the decoders deliver) | proved |
| C63 | invariant relating both printers and all files to the objects printed so far | proved |
| C64 | composition of C60 framing, C24 scaling, C40 rows, C57 reading back | proved |
| C65 | relational: three runs compared path by path via C63 | proved |
| C66 | simulation of the exact functions by rounding ones, error analysis per operation | proved |
| C67 | the same for the MARGO printer; the invariant of C44 over the rounded rows, then reading the text back as in C57 | proved |
| C68 | error analysis of one product per quantity, field widths bound the codes | proved |
| C69 | uniqueness of the grammar by mutual induction over derivations; injectivity of the value of a content; fresh work folder | partial: false for 1041 (C69_violated); contents refused by the decoder excluded |
| C70 | induction over the calls of `print` with an arbitrary fault oracle: once a file is open every later object of its number is printed; counting by message number | partial: false for MARGO (C70_violated) |
| C71 | parser as state machine over lines; invariant for the names; the text of every document of the format is read back (induction over its lines); simulation between reading into a parser with contents and reading into an empty one | proved |
| C72 | records of each function beside the function; induction over messages and over chunks: the loop on the first k chunks is the loop on a prefix of the file; error bounds of the two roundings | proved |
| C73 | records and counters compared along the run | partial: false for MARGO (`C73_violated`), JSON proved (`C73_partial`), all modes up to the lines about MARGO files that cannot be created (`C73_verdict`) |
| C74 | words classified, then consumed by a loop, as argparse of Python 3.11 does it; the loop related to the grammar in both directions by induction over the words | proved |
| C75 | case analysis over the program with C74 for the arguments | proved |
| C76 | C75, C71, C54, C61 composed with C60 (JSON), C64 (MARGO) and C65 (JARGO) for each source; the products are transferred from the conversion of a source alone to the batch because they are read under its work folder only | proved |
| C77 | frame lemmas of C49 and C61 for the loop, case analysis over the program for everything before it | proved |
| C78 | Model/Sources: `main` with source files that `rmtree` deletes; induction over the sources | partial: false (`C78_violated`), exact condition proved (`C78_exact`) |
| C79 | `os.path.split` against `splitext` of the whole path; the table of the printer against the specified names; C76 for the contents | proved |
| C80 | Model/RunDouble: the program with a rounding at each operation on floats; lockstep simulation: the two runs make the same decisions, calls and pieces of text at each step, from the decoders up to `main` | proved |
| C81 | no new model: run invariant of the rounded program (Lemmas/RunFilesDouble: files after a run from the decoded objects), comparison of JSON values member by member (Lemmas/JsonDouble), JSON-B by equality of runs (Lemmas/BareDouble), then C76 and C80 | proved |
| C82 | processing messages is printing what they decode to (Lemmas/SameObjects), so two sources with the same objects give the same files; the exact condition for refusal from C21-C37; then C76 for the source without the refused messages | proved |
| C83 | the lines are collected by functions that follow the loops of the conversion (Model/Details); loop invariants give the list of lines of a message (Lemmas/Details), and C24/C25 the observables that are missing; the log of a file from C72 | partial: phase ranges of MSM3, C83_violated |
| C84 | state of the grabber after any messages in closed form (`slotAfter`, `filesAfter`), shown to be what `save` leaves by induction on the messages; plan of a mode as a table in Spec/Grabber | proved |
| C85 | the text of the function in the syntax of PyCore, executed symbolically by rules; loops by induction; the result compared with the function of Model (`Refine/Bits`, `Refine/Fields`), then C14-C16 | proved |
| C86 | the same (`Refine/CRC24Q`), then C11 | proved |
| C87 | the same (`Refine/RtcmUtil`), then C20, C26, C28, C56 | proved |
| C88 | the assignments of each message as a list of steps (`Refine/EphData`), one lemma for a list of steps (`Refine/Fields`), heap extended by the new object only; then C30-C32 | partial: false for QZSS (C88_qzss_violated) |
| C89 | the text of the functions executed by rules, the three loops by induction on what is left of the buffer (`Refine/Framer`), then C01-C09; the heap grows by two lists per call | proved |
| C90 | the text executed by rules; the object and its parts at fixed offsets of the heap (`Refine/MsmHeap`), the reading of columns as a list of items with one lemma for the loop (`Refine/MsmObs`, `Refine/MsmExtract`), then C21 | proved |
| C91 | the same, then C22 | partial: false for MSM2 and MSM3 with a wrong length estimate (C91_violated) |
| C92 | the text executed by rules; tables as dictionaries in the heap with an invariant on their addresses (`Refine/ScHeap`), the loops over cells and satellites by simulation of the model (`Refine/Sc47`, `Refine/ScLoop`, `Refine/Sc47Fn`), masks and signal names (`Refine/ScMasks`, `Refine/ScSignals`, `Refine/ScSlots`), then C24 and C27 | proved |
| C93 | the same for the other class (`Refine/Sc13`, `Refine/Sc13Fn`), then C25 | partial: false with a wrong length estimate (C91_violated) and for MSM3 with a marked pseudorange (C93_violated) |
| C94 | refinement: the text of `RTCM_BASE.py` agrees with `Model/Base` (`Refine/Base*`), then C33-C37 | proved |
| C95 | the same for scaled mode, then C33-C38 | proved |
| C96 | the objects that the text of the strategies leaves are computed (`Refine/Assembly`); an invariant of the decoder object and its entries is kept by every call of `catch_message` and `decode` and by all code that leaves its objects alone (`inUse_inv`), then C89 and C01-C05 | proved |
| C97 | the search of the entry in `decode` by induction over the registered entries, then the total theorems of the sub-decoders (C88, C90-C95); counters by induction over the history; that a call has one result is the monotonicity of fuel (`PyCore/Fuel`) | proved |
| C98 | the dispatch of C97 and C90, C92; what an object shows does not depend on the counters (`SameView`) | proved |
| C99 | the dispatch of C97 and C94, C95 | proved |
| C100 | the dispatch of C97 and C88, C91, C93 | partial: violated for QZSS, MSM2, MSM3 |
| C101 | the refinement of C92 is proved for every arithmetic against `decodeMsm17R rnd`, then C66 (error bounds) | proved |
| C102 | the same with `Eph.scaleR rnd`, then C68 | partial: QZSS, C100_qzss_violated |
| C103 | the same with `Base.decodeR rnd`, then the error of one product; the count of announcements by C68 | proved |
| C104 | the dispatch of C97 and C101, C103 | proved |
| C105 | the dispatch of C97 and C102; C101 for MSM1 to MSM3 with C25 | partial: QZSS, MSM2, MSM3 |
| C106 | the three functions of `JSONCore` executed symbolically for every object of the heap that a sub-decoder builds; the result is the tree of the model (`Refine/Json*`), then C58 and C59 (tree and content), C40 (text and tree), C81 (tolerances) | partial: what is refused is not written, C106_violated |
| C107 | the calls of the conversion loop as a relation (`Spec.Session`) over the embedded texts; by induction over chunks and messages from C96 (catch), C97 (decode), C106 (serialise); streams with noise from C60 | partial: what is refused is not written, as in C106; C107_run is complete |
| C108 | `MargoCore.ObservablesMSMtoPrintBuffer` and the functions it calls executed symbolically (`Refine/Margo*`): nested loops by induction, with an invariant for the dictionary and the lists it holds; the result is the buffer of the model in every arithmetic; then C40 (rows, exact) and C67 (double precision), delivery from C97 | proved |
| C109 | from the rows of C108; for satellites beyond the columns all tables are empty at the printed numbers | partial: satellites without a column, C109_violated; MSM2, MSM3 as C100 |
| C110 | the calls of the conversion loop as a relation (`Spec.MargoSession`) over the embedded texts; by induction over chunks and messages from C96 (catch), C97 (decode), C108 (rows); the rows are followed to the heap at the end; streams with noise from C60 | proved |
| C111 | the induction of C110 for any list of chunks: whatever C24/C27 lets through is a regular object (C40), and a regular object is printed without an exception; which messages are decoded by C24/C27 | proved |
| C112 | both conversions are the conversion of the same list of messages (C96), and the text (the table) of a message is a function of what the model decodes it to (C106, C108); uniqueness of the results | proved |
| C113 | the sessions of C107 write what the model decodes each message to; the complete characterisations of the decoders (C21, C24, C30, C33) give a content that the message carries; its JSON as in C106 | proved |
| C114 | C113 for both conversions; a JSON text denotes one value (C69), and the value of a content that is carried determines it | proved |

## Hazards found that are not violations of a listed property

* Options of the section `DEFAULT` in an ini file are taken for literals (controls.py:72-73 never run): `ValueError` ends the program
  before any file is converted (C47_default_raises). A refused update stays in the parser and is merged into later updates.
* `compare` raises `AttributeError` for objects with different fields; nested objects are compared with the default tolerance.
* GLONASS literal −2848 gives carrier 0 and a `ZeroDivisionError` that ends the file (C62_channel). Band 3 of GLONASS has carrier 1202.0 in the table
  (unreachable).

* JSON-B files key GLONASS MSM by time of day; the day of the week is in the file only if header data are enabled.

## Wrong programs

`seeded/LOG.jsonl`: each line is one edit of the model in a scratch copy, the claim it breaks, the theorems that failed. Theorems
that depend on a failed lemma are listed if they belong to the claim.

## Axioms per theorem

Output of `#print axioms` for the 366 theorems named in MANIFEST.json:

* `none`: `C96_text`
* `propext`: `C54_arguments`, `C74_text`
* `propext, Quot.sound`: `C20_msm`, `C20_msm_only`, `C28_table10`, `C28_cover10`, `C28_mono10`, `C69_unambiguous`, `C83_level`
* `propext, Classical.choice, Quot.sound`: all others.

