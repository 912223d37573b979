# Formal model of cessen/text_encoding in Lean 4

## 1. What is modelled

Everything in `/repo/src` that is not test code is modelled, function by function, and the property
tests, the example and the table generators:

| Rust | Lean |
|---|---|
| `src/lib.rs` result and error types | `Verif/Rust.lean` |
| `src/utf8.rs` `encode_from_str`, `decode_to_str`, `copy_len` | `Verif/Model/Utf8.lean` |
| `src/utf16_be.rs`, `src/utf16_le.rs` | `Verif/Model/Utf16.lean` (one definition, parametrised by the byte order functions; the two files differ in nothing else) |
| `src/utf32_be.rs`, `src/utf32_le.rs` | `Verif/Model/Utf32.lean` (same) |
| `src/single_byte.rs` `ascii_ext_encode_from_str`, `ascii_ext_decode_to_str`, `ascii`, 30 table modules | `Verif/Model/SingleByte.lean`, `Verif/Tables/Single*.lean` |
| `src/shiftjis_whatwg.rs` and its tables | `Verif/Model/ShiftJis.lean`, `Verif/Tables/ShiftJis*.lean` |
| `src/big5_whatwg.rs` and its tables | `Verif/Model/Big5.lean`, `Verif/Tables/Big5*.lean` |
| `examples/wrapper.rs` `Encoding`, dispatching `encode_from_str` / `decode_to_str` | `Verif/Model/Wrapper.lean` |
| all functions of `src` once more, with machine integers | `Verif/Model/Machine.lean` |
| `tests/property_tests.rs`, `main` of `examples/wrapper.rs` | `Verif/Model/Tests.lean` |
| `encoding_tables/**/generate_*.py`, from parsed lines to tables | `Verif/Model/Generator.lean` |
| the same, reading the text of a mapping file and printing the Rust source | `Verif/Model/GeneratorText.lean` |
| the same, from parsed lines to test data; `tests/big5.rs`, `tests/shiftjis.rs` | `Verif/Model/TestData.lean` |
| the loops that the documentation describes (`src/lib.rs:58-113`, `148-168`) | `Verif/Model/Clients.lean` |
| programs that use the crate in other ways: with bounded memory, from the end, in parts, for the web, with byte order marks (not in `/repo`) | `Verif/Model/FixedMemory.lean`, `Backwards.lean`, `Parallel.lean`, `Html.lean`, `Bom.lean` |
| the algorithms of Rust's `core` behind the text functions the crate calls (not in `/repo`, written from memory) | `Verif/Model/Core.lean` |

All tables are transcribed completely (`DECODE_TABLE` and `ENCODE_TABLE` of all 32 table
modules). The published mapping files in `/repo/encoding_tables` (`*.txt`) are transcribed
separately, as part of the specification.

### How Rust is modelled (`Verif/Rust.lean`)

* A call is a value of type `Rs α = Except Fault α`, `Fault = panic | ub | diverge`.
  Index out of range, slice out of range, `copy_from_slice` length mismatch, slicing a `str`
  off a char boundary, `unwrap` of `None`, unsigned subtraction below zero: `panic`.
  `from_utf8_unchecked` / `from_u32_unchecked` on bad data: `ub`. A loop that runs out of
  its fuel: `diverge`. Property C01/C02 say none of these occurs, so nothing is hidden.
* A loop is `loop fuel body state`; the body is the Rust loop body, returning
  `continue state` or `break result`. Fuel is the length of the iterated input plus one.
* `&str` is `List Char` (a Lean `Char` is a Unicode scalar value, as in Rust); its bytes are
  the concatenation of `String.utf8EncodeChar`, Lean core's UTF-8 encoder. `&[u8]` and
  `&mut [u8]` are `List UInt8`. A call returns the buffer after the call together with the
  result, so writes to the buffer are observable also on `Err`.
* `usize` is `Nat`: additions do not overflow. This is not a gap: `Verif/Model/Machine.lean`
  repeats all functions with integers of the target's width, where an overflow panics or wraps
  according to the build profile, and C47 proves that both models return the same on every call,
  for inputs and buffers up to `isize::MAX` bytes.
* `u8` is `UInt8`; `u16`/`u32` values are `Nat` with explicit truncation where the code has
  `as u8` / `as u16`, checked subtraction where it subtracts.
* `binary_search_by_key` is modelled by the halving algorithm of `core::slice`
  (the result on a strictly sorted table does not depend on the variant used).
* `core::str::from_utf8` is modelled by its documented contract, `valid_up_to` = length of
  the longest prefix made of well-formed UTF-8 sequences, as an executable scan of the
  well-formed byte sequence table (Unicode Table 3-7). It is proved that the scanned prefix
  is exactly the UTF-8 of some text and that it is the longest such prefix.
* `char::encode_utf8`, `len_utf8`, `len_utf16`, `from_u32`, `is_char_boundary`,
  `char_indices`, `chunks`, `to_be_bytes`... are short definitions citing the std contract.
* That these contracts are met by the algorithms of `core` (word-wise UTF-8 validation, decoding of
  chars with bit operations, both versions of the binary search) is C69.

### Agreement of the model with the code

The code cannot be run here. C70 is a proof that the model agrees with the source text: `Verif/Lang` has
a lexer, a parser and an interpreter for the part of Rust that the crate uses, and every call of every
function of the modules, executed from the text, has the result and the effect of the model's.

As evidence that the interpreter does what Rust does, all 186 unit tests in `/repo/src`, the 32 tests in
`/repo/tests` and the examples of the documentation pass when they are executed from their text (C74, C75).

C72 does the same for the three Python generators: `Verif/Py` has a lexer, a parser and an interpreter
for the part of Python that they use, and every function, executed from the text, writes the files that
the model says, or raises its exception. C73 is about the whole programs.

### Not modelled

* The sampling of `proptest` (C74 is for everything that it may draw, and takes any text for one that
  matches a regular expression), Cargo files.
* Of the Python generators: the choice of the text encoding by `open` (UTF-8 is assumed), and those
  numerals of `int` that have signs, underscores or digits of other scripts, or more than 4300 digits
  (where Python 3.11 and later raise a `ValueError`); memory.
* Lifetimes and borrow checking (done by rustc), performance, `#[inline]`.
* The claim that `Verif/Files` has the text of the files in `/repo`: it is copied there line by line
  by `tools/gen_files.py` and read by the macros `lines!` (`Verif/Text.lean`) and `hex!`
  (`Verif/Hex.lean`), which are part of the trusted base. That `tools/gen_tables.py` transcribed
  the tables and mapping files correctly is not trusted but proved from these copies (C61).

## 2. Specification (`Verif/Spec/*.lean`)

Written without reference to the model, except that `Clients.lean`, `ByFile.lean`, `Work.lean` and `Restart.lean`
speak of calls (sequences of calls, results of calls, and the rounds of their loops).

* `CodeSeq e u t`: the byte string `u` is one complete code sequence of encoding `e` and
  stands for the text `t` (one char; two for four Big5 codes). UTF-8: Lean core's
  `String.utf8EncodeChar`; UTF-16/32: Unicode arithmetic; single byte: pairs of the published
  `.txt` file; Shift JIS / Big5: WHATWG decoder rule with the published index.
* `Decodes e bytes text`: `bytes` splits into code sequences whose texts concatenate to `text`.
* `errorExtent`, `Unfinished` (`Errors.lean`, `Outcome.lean`): how many bytes an error covers, and
  which tails may still be completed.
* `DecodeOutcome`/`EncodeOutcome` (`Outcome.lean`): the complete contract of a call.
* `Whatwg.lean`: the decoders and encoders of the WHATWG standard, as state machines over bytes,
  independent of the rest of the specification (written from knowledge of the standard; there is
  no network here to compare with its text), with the error modes "replacement", "fatal" and "html".
  The indexes are the files in the repository. For Big5 and Shift JIS these are the standard's. For the
  single-byte encodings they are mostly files of unicode.org, which leave bytes undefined to which the
  standard's own indexes (not in the repository) assign C1 controls, as 0x81 in windows-1252; there,
  C42 and C102 to C104 are about the standard's algorithms with these files.
  `Bom.lean`: the standard's "decode", which looks for a byte order mark.
* `Generator.lean`: what the tables made of a mapping file should be. `MappingFile.lean`: which text
  is a mapping file with which lines. `RustLex.lean`: the tokens of Rust source, as far as needed.
* `CharCode e c u`: the encoding of char `c` in `e` (preferred pointer rules for Shift JIS
  and Big5). `Encodes e text bytes`: char by char, with the four two-char Big5 codes greedy.

## 3. Proof architecture

1. `Front` functions: what one loop iteration does, as a pure function of the remaining
   input: `emit out n | bad n | more`.
2. Generic theory: a loop whose body follows a front function computes a `Trace` (all
   iterations; induction on fuel). Each Rust function body is proved to follow its front.
   UTF-8 (no loop, bulk copy) is proved to refine the same kind of trace directly.
3. Laws of the fronts against `Spec`: soundness, completeness, permanence, bounds.
4. Every property in `Verif/Props/*.lean` is proved from 2 and 3 for all encodings at once.
5. Tables: facts about all entries (sortedness, agreement with the published files,
   inverse) are established by kernel evaluation of a checker over the *whole* table
   (`decide +kernel`), lifted by a soundness lemma of the checker. The tables are finite
   constants of the program, so this is exhaustive, not a sample.

## 4. Properties

| id | model/statement | proof |
|---|---|---|
| C01, C02 | `encode`/`decode` return `.ok` for every encoding, input, buffer, flag | refinement (2) |
| C03-C07 | relation of result to `Encodes` on prefixes | trace induction + front laws |
| C08, C09 | buffer after = output ++ untouched tail; result depends on buffer length only | trace refinement |
| C10-C16 | relation of result to `Decodes` on prefixes; permanence for every continuation | trace induction + front laws |
| C17-C19 | inductive relation of runs over arbitrary windows and buffers; any two completed runs agree | each call is a prefix of the canonical trace. C18 is false for UTF-8: negation proved with a witness, positive theorem for the other 37 encodings |
| C20-C22 | progress; executable driver of the docs' loop, termination by measure | front laws |
| C23, C24, C26, C27 | composition of encode and decode | spec determinism and inverse tables |
| C25 | false: negation proved by three witnesses | evaluation of the model, C26 gives the exact statement |
| C28-C32 | per byte / per char statements against published files | exhaustive table checks + binary search correctness |
| C33 | false for UTF-8 (witness), proved for the others | front laws |
| C34-C40 | as stated | trace induction |
| C41, C42 | WHATWG state machines against the model. C41 is false for Big5 and Shift JIS in the cases listed in section 6, C42 for UTF-8; exact positive theorems and witnesses | simulation of each machine by the step function |
| C43, C44 | client loops of the documentation, as executable functions | measure + contract |
| C45, C46 | a call has an outcome if and only if the contract allows it, and the contract allows exactly one | refinement + determinism |
| C47 | machine integers: equal to the model over `Nat` | the two loops run in lockstep; bounds on indices |
| C48-C51 | generators, for every mapping file | invariants of their loops; a sorted table is determined by its members |
| C52 | committed tables are the generators' output | uniqueness of the tables + exhaustive table checks |
| C53, C54 | calls for concatenated input, byte order marks | a trace over the first part can be extended by one over the rest |
| C55 | the property tests, as functions that panic where an assertion fails | progress of each call; what a loop has done so far is a prefix of the one decoding or encoding |
| C56 | a decode loop feeding an encode loop, as an executable function | invariant: text encoded ++ text pending ++ text of the rest = text of the input |
| C57 | calls on an input and on any continuation of it | the trace of the shorter input is a prefix of that of the longer one; errors are final |
| C58 | number of bytes per char, sums over texts | by cases on the encodings; completeness from C06 and C14 |
| C59 | the test data generators, the four tests that include their files | the lines are codes of the specification; C06 and C14 |
| C60 | generators from text to text, a grammar of mapping files, a lexer of Rust | induction over text, words, digits and table entries; C49 and C51 |
| C61 | the repository's mapping files and generated sources, verbatim | kernel evaluation of a checker for each line, lifted by soundness lemmas; C52 and C60 |
| C62 | the repository's index files and test data, verbatim | kernel evaluation of a checker for each part, lifted by soundness lemmas; the entries not used for encoding are listed with the ones used instead; C59 |
| C63, C64 | the bytes below a bound that depends on the encoding; cutting and joining there | every code is such a byte or has none; induction over `Decodes` and `Encodes` |
| C65 | the lossy decoding loop of C39 on data with such a byte in it | no error extent reaches over the byte; the text is determined by the steps of the decoder. False for UTF-8 (witness) |
| C66, C67 | which functions never return `Err`; U+FFFD in text | exhaustive table checks, C12, C07, C10; a failing input for every other encoding |
| C68 | lexicographic order of bytes and chars | the codes of two chars differ at a first byte, in the same direction |
| C69 | the algorithms of `core` on bytes, with word reads that fault when unaligned or out of bounds | invariants of the validation loops, arithmetic of bit fields |
| C70 | the text of src/*.rs and src/generated (verbatim copies), a lexer and parser, and an interpreter of the part of Rust that they use (`Verif/Lang`) | the kernel runs the parser on the texts; symbolic execution of each function body, simulation of each loop by the loop of the machine-integer model (C47) |
| C71 | the text of examples/wrapper.rs, with `use text_encoding::{single_byte::*, *};` resolved in the modules of C70 | the match over the 38 encodings by lookup of names, then C70; `main` by evaluation |
| C72 | the text of the three Python generators (verbatim copies), a lexer and parser, and an interpreter of the part of Python that they use, with files as values (`Verif/Py`) | the kernel runs the parser on the texts; symbolic execution of each function body, simulation of each loop by the loop of the model; then C60 |
| C73 | the main programs of the generators, in any folder with the repository's mapping files | induction over the list of calls of C72, with C61 and C62 for the contents |
| C74 | the text of tests/*.rs, with the items in `proptest! { … }` as tests with an input, `include_bytes!` of the verbatim copies of C62 | symbolic execution of the test bodies, the loops by induction along the loops of C55, calls by C70; the tests with files by C62 |
| C75 | the text of the modules `tests` in src/*.rs and of the examples in the documentation of src/lib.rs | the kernel runs the parser on the texts, and then each test, for a symbolic target, with calls of the crate answered by the model; these answers are those of the source text by C70 |
| C76 | the execution of C70 and the contracts of C45 and C46; the model of the functions is not in the statement | C70 with C45, C46 and C23 |
| C77 | the execution of the generator of C72, and of what it writes as a module `single_byte::…` of C70 | C72, C60 (the tokens of the output), C49, and the symbolic execution of C70 for an arbitrary table |
| C78 | occurrences of encoded text in encoded text, at a whole number of code units (`Spec/Search.lean`) | a code cannot begin inside another one; induction over `Decodes`. False for Shift JIS, Big5 and odd offsets (witnesses) |
| C79 | the documented loop with skipping instead of stopping (`Props/LossyStream.lean`) | invariant of the loop: every lossy run of what is left gives one of the whole stream; `DecLaw.final` for error ranges that do not depend on what follows. UTF-8: witness of the dependence, and the same invariant with the replacement characters left out. Encoding: the same with `EncodesReplacing` |
| C80 | two calls whose inputs have a beginning in common | the step of a decoder is determined by four bytes, that of an encoder by two chars; induction over the trace |
| C81 | the same loop for encoding, with nothing in place of a char without a code | as C79; C14 for decoding the result |
| C82 | second codes (Spec/SecondCodes.lean), from the code relations only | decoding and encoding code by code; the counts are the rows of the published index files less the rows the generators keep for encoding (C41, C50) |
| C83 | a cut through complete text; decoding from there | a cut is between two codes or inside one; the rest of a cut code does not begin a code (C78) and is an error of its own length (C45); a family of texts for the two-byte encodings |
| C84 | the skip-and-continue loop of C39 over text, damage, text | induction over the damage: a code or an error that begins in it ends in it (C78, C40) |
| C85 | a cut through complete text; decoding what is before it | as C83; the beginning of a code is unfinished and, as the end of the data, an error of its own length (C45) |
| C86 | slices of text and of its encoding | induction over the codes, each of the width of a unit |
| C87 | the loop of C56, run twice | C56 in both directions, uniqueness of meaning and code, C82 |
| C88 | the loops of C39 and C44, one after the other, twice | induction over the pieces of C39: each is a code with a char that has a code again, or an error; C67 for U+FFFD |
| C89 | the sizes of codes and of their texts | C11 and the end of a trace for the bound, a longest code of each encoding for the converse |
| C90 | the rounds of the loops of the model, counted (Spec/Work.lean); what a round costs is not modelled | each round moves the counters on; halving for the search; for UTF-8 the exact number of rounds on a text of é |
| C91 | nothing new | codes are unique both ways (C23, C26, C82); sizes of texts (C58) |
| C92 | the edits (Spec/LowEdits.lean) | induction over the codes: a code is one low byte or has none (C63) |
| C93 | nothing new | the steps of every sequence of calls are steps of one walk over the input (as for C17, C19); of two walks the longer extends the other |
| C94 | the ways of counting (Spec/Counting.lean) | for each code: counting it and the rest is counting the rest and adding its chars; induction over the codes |
| C95 | nothing new | C82 and C14; for replaced errors: what decodes has no error in it (induction over the pieces of C39) |
| C96 | nothing new | a code is not the beginning of another one; an encoded text splits where the two chars have no common code |
| C97 | nothing new | eleven short pieces of data tell any two encodings apart, except ASCII from those that contain it: the kernel computes what each encoding reads there; C34 for ASCII; induction over the text for two tables |
| C98 | histories of calls, records and interruptions (Spec/Restart.lean); what an interruption leaves in the file after the recorded length is arbitrary | invariant of the histories: the file is the conversion of what was consumed, and its recorded beginning that of the recorded place; then C14, C17, C19, C93 |
| C99 | the loop of a program with a bounded memory for the input (Model/FixedMemory.lean; the reads are arbitrary); least memory in Spec/LeastBuffer.lean | invariant of the loop: what was consumed is converted, memory and unread input are the rest; a call that consumes nothing leaves less than one code (or a letter that Big5 keeps), so that there is room to read; for less memory an input with which no round changes anything |
| C100 | the program that reads from the end (Model/Backwards.lean); the number of bytes in Spec/LookBack.lean | no proper end of a code decodes (from C83's lemma on codes that are cut); so the shortest end that decodes is the last code; induction on the data; for the two other encodings, texts of any length that differ in their first byte only |
| C101 | a program that divides data (Model/Parallel.lean); the calls for the parts are independent of each other, since calls have no state | the moved place is the least one after the given place that is between two codes (lemmas of C83); induction on the places, on the parts (C64), and on the parts of a text (C96) |
| C102 | the streaming loop of C18; the standard's decoders in error mode "fatal" (`DecodesFatal` in Spec/Whatwg.lean) | the simulation of C42 for any handling of errors (Proof/Whatwg.lean, `StepAs`), with "stop" in place of "replace"; the error is where the standard's first error is, since nothing follows it |
| C103 | a program that writes references (Model/Html.lean); the standard's encoders in error mode "html" (`EncodesHtml` in Spec/Whatwg.lean), in which the reference is itself encoded | the program's bytes, by induction on the calls; agreement char by char (C41); a char that is encoded differently begins with a different byte |
| C104 | a program that looks for a mark (Model/Bom.lean); the standard's "decode" (Spec/Bom.lean) | the first three bytes decide; C102, or C79 and C42, for what follows; texts of which the rest means the same in the other encoding do not exist, mostly because the rest would have to be longer (C58) |

No property was found to be inexpressible.

## 5. Trusted base

* Lean 4.33.0 kernel. Axioms: `propext`, `Classical.choice`, `Quot.sound` at most; the list for
  each theorem is at the end of this file (`tools/axioms.py`, from `#print axioms`).
* The reading of Rust semantics described in section 1 (for the algorithms of `core`, from memory), and of Python's lists, sets and sorting in
  `Verif/Model/Generator.lean`, of its text files and formatting in `Verif/Model/GeneratorText.lean`.
* `tools/gen_files.py` and the macros `lines!` and `hex!`: verbatim copies of the mapping files, of
  the generated sources and of the test data. `tools/gen_src.py` does the same for src/*.rs and
  tests/*.rs.
* For C70, C71 and C74 to C77, that the rules of `Verif/Lang/Semantics.lean` are those of Rust for programs that the
  compiler accepts: references are the values they refer to, what happens through a `&mut` is written
  back; literals without a suffix take the type of what they meet; types, borrows and visibility are
  not checked; `use super::*`, `mod` and `include!` as in `Verif/Lang/Crate.lean`. The contracts of the
  functions of `core` are those of `Verif/Rust.lean` (C69). In C75 an array of integers without a suffix
  that is the argument of a function is one of bytes.
* For C72, C73 and C77, that the rules of `Verif/Py/Semantics.lean` are those of Python 3 for the programs
  that `Fn.separate` accepts (no list or set has two names); what the functions of the standard library
  do (`sorted`, `split`, `int`, `format`, `chr`, `bytes`, `encode`); that paths with different names are
  different files, that a file can always be written to and that its folder exists. `tools/gen_py.py`
  copies the three source texts.
* The specification, including the transcription of the WHATWG standard.

## 6. Findings

Where the code does not do what its documentation or the standard says. The items with an id are
theorems.

* C18: for UTF-8 the error range depends on how the input is cut (`FF 80`).
* C25: Shift JIS encoding is not lossless, though the module's documentation says so:
  U+00A5, U+203E and U+2212 come back as other characters.
* C33: a truncated UTF-8 tail at the end of the input swallows ASCII: `E3 41` gives the error
  range (0, 2).
* C36, C45: without `is_end`, some tails are waited for that nothing can complete (UTF-8 `C0`,
  `F5`; UTF-16BE `D8 00 00`; UTF-32BE `FF`).
* C41: the Big5 encoder does not exclude the pointers below 5024, as the standard does. 3837 code
  points are encoded although the standard has no code for them, and 57 get another code (U+7BB8
  gives `8E 69` instead of `BA E6`). Shift JIS in addition encodes U+E000 to U+E757.
* C65: lossy UTF-8 decoding cannot be done line by line (`E3 0A` is one error); the other encodings
  with ASCII can.
* C42: lossy UTF-8 decoding gives other numbers of U+FFFD than the standard.
* C50: `seen &= {item[1]}` (generate_ascii_ext_tables.py:47) is an intersection, so nothing is
  ever deduplicated. No shipped file has a duplicate.
* C60: generate_ascii_ext_tables.py opens its output file for writing before it checks the mapping
  file, so an exception leaves the generated source empty.
* C90: UTF-8 decoding with a small buffer takes time quadratic in the input that is passed: each call
  validates the whole rest. The other encodings take linear time.
* The branch `input.len() < input_i` of the encoders is never taken (C90).
* `DecodeErrorCause::UnknownConversion` is never reported (part of C16).

## 7. Wrong programs

`seeded/` has the edits that were tried on the model and what happened (`seeded/README.md`).

The statements of C11, C15, C20, C36 and C38 were sharpened on review before the first of those
runs: they described an unfinished tail as "undecodable and shorter than 4 bytes", which says too
little. The edits `u8-trunc-3`, `u8-trunc-mask` and `b5-dec-80` make the sharper statements of C11,
C15, C20 and C36 false. C39 was given the exact extents of the skipped
pieces later, because the proof of C42 needs them.

## 8. Axioms of each theorem

<!-- axioms -->

`propext, Classical.choice, Quot.sound`:

* `Verif.Props.C01_decode_returns`
* `Verif.Props.C01_encode_returns`
* `Verif.Props.C02_no_undefined_behaviour`
* `Verif.Props.C03_encode_ok_is_encoding`
* `Verif.Props.C04_encode_ok_is_maximal`
* `Verif.Props.C05_encode_err_is_first_unencodable`
* `Verif.Props.C06_encode_complete`
* `Verif.Props.C06_encodable_text_has_encoding`
* `Verif.Props.C07_unicode_encoders_never_fail`
* `Verif.Props.C08_decode_writes_only_output`
* `Verif.Props.C08_encode_writes_only_output`
* `Verif.Props.C09_decode_ignores_buffer_contents`
* `Verif.Props.C09_encode_ignores_buffer_contents`
* `Verif.Props.C10_decode_ok_is_decoding`
* `Verif.Props.C11_decode_ok_is_maximal`
* `Verif.Props.C12_decode_err_is_first_error`
* `Verif.Props.C13_decode_error_is_final`
* `Verif.Props.C14_decode_complete`
* `Verif.Props.C15_ok_means_well_formed`
* `Verif.Props.C15_malformed_is_reported`
* `Verif.Props.C16_decode_error_range`
* `Verif.Props.C17_decode_schedule_independent`
* `Verif.Props.C18_decode_error_range_schedule_independent`
* `Verif.Props.C19_encode_schedule_independent`
* `Verif.Props.C20_decode_progress`
* `Verif.Props.C21_encode_progress`
* `Verif.Props.C22_streaming_loop_decodes_stream`
* `Verif.Props.C23_text_round_trip`
* `Verif.Props.C23_text_round_trip_all`
* `Verif.Props.C24_byte_round_trip`
* `Verif.Props.C25_shift_jis_lossless_iff`
* `Verif.Props.C26_shift_jis_round_trip`
* `Verif.Props.C27_decoded_text_is_stable`
* `Verif.Props.C28_single_byte_decode`
* `Verif.Props.C28_single_byte_encode`
* `Verif.Props.C28_tables`
* `Verif.Props.C29_shift_jis_decode`
* `Verif.Props.C30_shift_jis_encode`
* `Verif.Props.C31_big5_decode`
* `Verif.Props.C32_big5_encode`
* `Verif.Props.C32_big5_pairs_are_greedy`
* `Verif.Props.C33_error_has_no_ascii`
* `Verif.Props.C34_ascii_decode`
* `Verif.Props.C34_ascii_encode`
* `Verif.Props.C35_decode_mirror`
* `Verif.Props.C35_encode_mirror`
* `Verif.Props.C36_is_end_only_matters_for_tail`
* `Verif.Props.C37_decode_bigger_buffer`
* `Verif.Props.C37_encode_bigger_buffer`
* `Verif.Props.C38_decode_growth_is_least`
* `Verif.Props.C38_encode_growth_is_least`
* `Verif.Props.C38_decode_room`
* `Verif.Props.C38_decode_room_total`
* `Verif.Props.C38_encode_room`
* `Verif.Props.C39_lossy_decoding_finishes`
* `Verif.Props.C40_decode_error_extent`
* `Verif.Props.C41_big5_encode_vs_whatwg`
* `Verif.Props.C41_big5_text`
* `Verif.Props.C41_shift_jis_encode_vs_whatwg`
* `Verif.Props.C41_big5_difference_counts`
* `Verif.Props.C42_lossy_decoding_is_whatwg`
* `Verif.Props.C42_utf8_agrees_up_to_first_error`
* `Verif.Props.C43_streaming_loop_encodes_text`
* `Verif.Props.C44_encoding_with_replacement`
* `Verif.Props.C45_decode_outcome_iff`
* `Verif.Props.C45_decode_outcome_unique`
* `Verif.Props.C45_decode_contract_determines`
* `Verif.Props.C46_encode_outcome_iff`
* `Verif.Props.C46_encode_outcome_unique`
* `Verif.Props.C46_encode_contract_determines`
* `Verif.Props.C47_decode_no_overflow`
* `Verif.Props.C47_encode_no_overflow`
* `Verif.Props.C47_calls_return`
* `Verif.Props.C47_same_everywhere`
* `Verif.Props.C48_generator_accepts`
* `Verif.Props.C48_generator_rejects`
* `Verif.Props.C49_generated_module`
* `Verif.Props.C49_generated_roundtrip`
* `Verif.Props.C50_duplicates_are_kept`
* `Verif.Props.C51_shiftjis_generator`
* `Verif.Props.C51_big5_generator`
* `Verif.Props.C52_shiftjis_tables`
* `Verif.Props.C52_big5_tables`
* `Verif.Props.C52_single_byte_modules`
* `Verif.Props.C53_decode_append`
* `Verif.Props.C53_encode_append`
* `Verif.Props.C54_decode_keeps_byte_order_mark`
* `Verif.Props.C54_decode_ignores_swapped_mark`
* `Verif.Props.C54_decode_rejects_swapped_mark`
* `Verif.Props.C54_encode_adds_no_byte_order_mark`
* `Verif.Props.C55_encode_loop`
* `Verif.Props.C55_decode_loop`
* `Verif.Props.C55_unicode_roundtrip_tests`
* `Verif.Props.C55_single_byte_roundtrip_tests`
* `Verif.Props.C55_random_input_tests`
* `Verif.Props.C55_example_main`
* `Verif.Props.C56_transcode`
* `Verif.Props.C57_decode_more_input`
* `Verif.Props.C57_encode_more_input`
* `Verif.Props.C58_encode_output_size`
* `Verif.Props.C58_encode_error_size`
* `Verif.Props.C58_decode_input_size`
* `Verif.Props.C58_decode_error_position`
* `Verif.Props.C58_encode_complete_iff`
* `Verif.Props.C58_decode_complete_iff`
* `Verif.Props.C59_shiftjis_decode_test`
* `Verif.Props.C59_shiftjis_encode_test`
* `Verif.Props.C59_big5_decode_test`
* `Verif.Props.C59_big5_encode_test`
* `Verif.Props.C60_single_byte_source`
* `Verif.Props.C60_single_byte_rejects`
* `Verif.Props.C60_shiftjis_source`
* `Verif.Props.C60_big5_source`
* `Verif.Props.C61_single_byte_files`
* `Verif.Props.C61_shiftjis_files`
* `Verif.Props.C61_big5_files`
* `Verif.Props.C62_shiftjis_test_data`
* `Verif.Props.C62_big5_test_data`
* `Verif.Props.C63_decode_low_bytes`
* `Verif.Props.C63_encode_low_bytes`
* `Verif.Props.C63_no_nul`
* `Verif.Props.C64_decode_split`
* `Verif.Props.C64_decode_join`
* `Verif.Props.C64_encode_split`
* `Verif.Props.C64_encode_join`
* `Verif.Props.C65_lossy_decoding_by_lines`
* `Verif.Props.C65_lossy_text_independent_of_buffer`
* `Verif.Props.C66_decoder_never_fails_iff`
* `Verif.Props.C66_all_bytes_published_iff`
* `Verif.Props.C66_every_byte_string_decodes`
* `Verif.Props.C66_encoder_never_fails_iff`
* `Verif.Props.C67_decoded_text_has_no_replacement_char`
* `Verif.Props.C67_encoders_reject_replacement_char`
* `Verif.Props.C67_encoded_text_has_no_replacement_char`
* `Verif.Props.C67_replacement_chars_mark_errors`
* `Verif.Props.C68_order_is_kept`
* `Verif.Props.C68_decoding_keeps_order`
* `Verif.Props.C69_valid_up_to`
* `Verif.Props.C69_from_utf8`
* `Verif.Props.C69_char_indices`
* `Verif.Props.C69_encode_utf8`
* `Verif.Props.C69_len_utf8_utf16`
* `Verif.Props.C69_from_u32`
* `Verif.Props.C69_is_char_boundary`
* `Verif.Props.C69_binary_search`
* `Verif.Props.C70_source_encodes`
* `Verif.Props.C70_source_decodes`
* `Verif.Props.C71_wrapper_encodes`
* `Verif.Props.C71_wrapper_decodes`
* `Verif.Props.C71_wrapper_main`
* `Verif.Props.C72_single_byte`
* `Verif.Props.C72_single_byte_source`
* `Verif.Props.C72_single_byte_rejects`
* `Verif.Props.C72_shiftjis_tables`
* `Verif.Props.C72_big5_tables`
* `Verif.Props.C72_shiftjis_source`
* `Verif.Props.C72_big5_source`
* `Verif.Props.C72_shiftjis_missing`
* `Verif.Props.C72_big5_missing`
* `Verif.Props.C72_shiftjis_test_data`
* `Verif.Props.C72_big5_test_data`
* `Verif.Props.C72_shiftjis_test_files`
* `Verif.Props.C72_big5_test_files`
* `Verif.Props.C72_shiftjis_index`
* `Verif.Props.C72_big5_index`
* `Verif.Props.C73_single_byte_program`
* `Verif.Props.C73_shiftjis_program`
* `Verif.Props.C73_big5_program`
* `Verif.Props.C74_property_tests`
* `Verif.Props.C74_shiftjis_tests`
* `Verif.Props.C74_big5_tests`
* `Verif.Props.C75_unit_tests`
* `Verif.Props.C75_documentation_examples`
* `Verif.Props.C76_source_encode_contract`
* `Verif.Props.C76_source_decode_contract`
* `Verif.Props.C76_source_round_trip`
* `Verif.Props.C77_mapping_file_to_conversion`
* `Verif.Props.C77_mapping_file_round_trip`
* `Verif.Props.C78_search`
* `Verif.Props.C78_contains`
* `Verif.Props.C79_replacements_in_chunks`
* `Verif.Props.C79_lossy_decoding_in_chunks`
* `Verif.Props.C79_kept_text_in_chunks`
* `Verif.Props.C79_encoding_with_replacement_in_chunks`
* `Verif.Props.C80_decode_lookahead`
* `Verif.Props.C80_decode_lookahead_utf8`
* `Verif.Props.C80_encode_lookahead`
* `Verif.Props.C81_skipping_loop`
* `Verif.Props.C81_skipping_is_encoding_of_rest`
* `Verif.Props.C81_skipping_then_decoding`
* `Verif.Props.C82_decoded_bytes_come_back_iff`
* `Verif.Props.C82_second_code_iff`
* `Verif.Props.C82_second_code_counts`
* `Verif.Props.C83_decoding_from_the_middle`
* `Verif.Props.C83_two_byte_encodings_fail`
* `Verif.Props.C84_damage_stays_local`
* `Verif.Props.C84_two_byte_encodings_fail`
* `Verif.Props.C84_damage_stays_in_line`
* `Verif.Props.C85_truncated_text`
* `Verif.Props.C86_random_access`
* `Verif.Props.C86_random_access_encode`
* `Verif.Props.C87_there_and_back_iff`
* `Verif.Props.C87_there_and_back_ends`
* `Verif.Props.C88_cleaned_data_decodes`
* `Verif.Props.C88_cleaning_twice`
* `Verif.Props.C89_decode_progress_iff`
* `Verif.Props.C89_encode_progress_iff`
* `Verif.Props.C90_decode_rounds`
* `Verif.Props.C90_encode_ends_inside`
* `Verif.Props.C90_boundary_rounds`
* `Verif.Props.C90_cut_rounds`
* `Verif.Props.C90_decoding_is_linear`
* `Verif.Props.C90_encoding_is_linear`
* `Verif.Props.C90_utf8_decoding_is_quadratic`
* `Verif.Props.C91_same_bytes_iff`
* `Verif.Props.C91_same_text_same_length`
* `Verif.Props.C91_same_text_iff`
* `Verif.Props.C92_decode_edited`
* `Verif.Props.C92_encode_edited`
* `Verif.Props.C92_line_ends`
* `Verif.Props.C93_decode_between`
* `Verif.Props.C93_decode_offsets`
* `Verif.Props.C93_encode_between`
* `Verif.Props.C93_encode_offsets`
* `Verif.Props.C94_count_decoded`
* `Verif.Props.C94_count_encoded`
* `Verif.Props.C94_count_low_decoded`
* `Verif.Props.C94_count_low_encoded`
* `Verif.Props.C95_repair`
* `Verif.Props.C95_nothing_lost`
* `Verif.Props.C95_replaced_is_lost`
* `Verif.Props.C96_begins_with_iff`
* `Verif.Props.C96_begins_with`
* `Verif.Props.C96_decoded_begins_with`
* `Verif.Props.C97_reads_the_same_iff`
* `Verif.Props.C97_written_reads_the_same_iff`
* `Verif.Props.C97_text_reads_the_same_iff`
* `Verif.Props.C98_decode_restarted`
* `Verif.Props.C98_decode_same_file`
* `Verif.Props.C98_decode_finished`
* `Verif.Props.C98_decode_can_finish`
* `Verif.Props.C98_decode_failed`
* `Verif.Props.C98_encode_restarted`
* `Verif.Props.C98_encode_same_file`
* `Verif.Props.C98_encode_finished`
* `Verif.Props.C98_encode_can_finish`
* `Verif.Props.C98_encode_failed`
* `Verif.Props.C99_decode_fixed_memory_iff`
* `Verif.Props.C99_encode_fixed_memory_iff`
* `Verif.Props.C100_look_back_iff`
* `Verif.Props.C100_reading_backwards_iff`
* `Verif.Props.C101_decode_parts`
* `Verif.Props.C101_parts_are_near`
* `Verif.Props.C101_decode_lines`
* `Verif.Props.C101_encode_parts`
* `Verif.Props.C102_strict_streaming_is_whatwg`
* `Verif.Props.C102_strict_decoding_is_whatwg`
* `Verif.Props.C103_encoding_for_the_web`
* `Verif.Props.C104_reading_is_whatwg_decode`
* `Verif.Props.C104_lossy_reading_is_whatwg_decode`
* `Verif.Props.C104_marked_text_is_read_back`
* `Verif.Props.C104_unmarked_text_iff`

`propext, Quot.sound`:

* `Verif.Props.C18_utf8_error_range_depends_on_schedule`
* `Verif.Props.C25_shift_jis_encoding_is_not_lossless`
* `Verif.Props.C33_utf8_error_at_end_swallows_ascii`
* `Verif.Props.C41_big5_differences`
* `Verif.Props.C42_utf8_differs_after_error`
* `Verif.Props.C51_shiftjis_index`
* `Verif.Props.C51_big5_index`
* `Verif.Props.C63_bound_is_exact`
* `Verif.Props.C64_bound_is_needed`
* `Verif.Props.C65_utf8_counterexample`
* `Verif.Props.C67_unicode_has_replacement_char`
* `Verif.Props.C68_utf16_does_not_keep_order`
* `Verif.Props.C72_single_byte_missing`
* `Verif.Props.C75_no_other_tests`
* `Verif.Props.C78_utf16_unaligned`
* `Verif.Props.C78_shift_jis_fails`
* `Verif.Props.C78_big5_fails`
* `Verif.Props.C79_utf8_fails`
* `Verif.Props.C80_bound_is_sharp`
* `Verif.Props.C84_utf8_end_is_lost`
* `Verif.Props.C86_other_encodings_fail`
* `Verif.Props.C87_yen_is_lost`
* `Verif.Props.C88_yen_as_replacement`
* `Verif.Props.C90_decode_call`
* `Verif.Props.C90_encode_call`
* `Verif.Props.C90_encode_rounds`
* `Verif.Props.C90_error_end_rounds`
* `Verif.Props.C90_search_rounds`
* `Verif.Props.C90_table_search_rounds`
* `Verif.Props.C92_not_beyond_the_bound`
* `Verif.Props.C96_exceptions`
