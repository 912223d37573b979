{"id": "C01", "title": "No call panics, overflows or hangs", "statement": "For every encoding, encode_from_str and decode_to_str return a value (Ok or Err) on every input and every output buffer: no slice index out of range, no slicing of a str off a char boundary, no integer underflow, no failed unwrap, no endless loop.", "quantifier": "all encodings x all str / byte inputs of any length x all output buffers of any length (including empty) x is_end", "why_tests_cant": "the input and buffer spaces are unbounded; a panic at one buffer length / char mix is invisible to sampled cases", "anchors": ["src/utf8.rs:encode_from_str", "src/utf16_be.rs:encode_from_str", "src/utf16_le.rs:encode_from_str", "src/utf32_be.rs:encode_from_str", "src/utf32_le.rs:encode_from_str", "src/single_byte.rs:ascii_ext_encode_from_str", "src/shiftjis_whatwg.rs:encode_from_str", "src/big5_whatwg.rs:encode_from_str", "src/utf8.rs:decode_to_str", "src/utf16_be.rs:decode_to_str", "src/utf16_le.rs:decode_to_str", "src/utf32_be.rs:decode_to_str", "src/utf32_le.rs:decode_to_str", "src/single_byte.rs:ascii_ext_decode_to_str", "src/shiftjis_whatwg.rs:decode_to_str", "src/big5_whatwg.rs:decode_to_str"]}
{"id": "C02", "title": "The unsafe blocks are sound", "statement": "Every decoder's from_utf8_unchecked is applied only to bytes that are valid UTF-8, and every from_u32_unchecked only to Unicode scalar values, so no call has undefined behaviour and the returned &str is well formed.", "quantifier": "all encodings x all byte inputs x all buffers x is_end", "why_tests_cant": "undefined behaviour is not observable by a test; must hold on every input including malformed ones", "anchors": ["src/utf8.rs:decode_to_str", "src/utf16_be.rs:decode_to_str", "src/utf16_le.rs:decode_to_str", "src/utf32_be.rs:decode_to_str", "src/utf32_le.rs:decode_to_str", "src/single_byte.rs:ascii_ext_decode_to_str", "src/shiftjis_whatwg.rs:decode_to_str", "src/big5_whatwg.rs:decode_to_str", "src/utf16_be.rs:decode_to_str (from_u32_unchecked)"]}
{"id": "C03", "title": "Encode Ok: output is exactly the encoding of the consumed text", "statement": "If encode_from_str returns Ok((out, n)) then n is a char boundary of the input and out is exactly the target encoding's published byte sequence for input[..n]; never a partial character.", "quantifier": "all encodings x all texts x all buffers x is_end", "why_tests_cant": "must hold at every buffer length / character boundary combination", "anchors": ["src/utf8.rs:encode_from_str", "src/utf16_be.rs:encode_from_str", "src/utf16_le.rs:encode_from_str", "src/utf32_be.rs:encode_from_str", "src/utf32_le.rs:encode_from_str", "src/single_byte.rs:ascii_ext_encode_from_str", "src/shiftjis_whatwg.rs:encode_from_str", "src/big5_whatwg.rs:encode_from_str", "src/lib.rs"]}
{"id": "C04", "title": "Encode Ok: everything that fits is written", "statement": "If encode_from_str returns Ok((out, n)) with n < input.len() then the next character's encoding does not fit in the space left in the buffer (or that character is unencodable and the buffer is full - in Shift JIS, has fewer than two bytes left - or, for Big5 with is_end = false, the remaining text is just one of the two letters that may start a two-char code).", "quantifier": "all encodings x all texts x all buffers x is_end", "why_tests_cant": "maximality is a universally quantified statement over buffer sizes", "anchors": ["src/utf8.rs:encode_from_str", "src/utf16_be.rs:encode_from_str", "src/utf16_le.rs:encode_from_str", "src/utf32_be.rs:encode_from_str", "src/utf32_le.rs:encode_from_str", "src/single_byte.rs:ascii_ext_encode_from_str", "src/shiftjis_whatwg.rs:encode_from_str", "src/big5_whatwg.rs:encode_from_str", "src/lib.rs"]}
{"id": "C05", "title": "Encode Err pinpoints the first unencodable char", "statement": "If encode_from_str returns Err then `character` is a char with no representation in the target encoding, error_range is exactly its byte range in the input, and out_buffer[..output_bytes_written] is exactly the encoding of input[..error_range.0].", "quantifier": "all encodings x all texts x all buffers x is_end", "why_tests_cant": "the failing char may be anywhere in an unbounded text", "anchors": ["src/single_byte.rs:ascii_ext_encode_from_str", "src/shiftjis_whatwg.rs:encode_from_str", "src/big5_whatwg.rs:encode_from_str", "src/lib.rs:EncodeError"]}
{"id": "C06", "title": "Encode completeness", "statement": "If every char of the text is representable in the target encoding and the buffer is at least as long as the encoded text, encode_from_str returns Ok with the whole encoding and consumes the whole input (in Big5 without is_end, provided the text does not end with one of the two letters that may start a two-char code).", "quantifier": "all encodings x all representable texts x all sufficient buffers", "why_tests_cant": "unbounded texts", "anchors": ["src/utf8.rs:encode_from_str", "src/utf16_be.rs:encode_from_str", "src/utf16_le.rs:encode_from_str", "src/utf32_be.rs:encode_from_str", "src/utf32_le.rs:encode_from_str", "src/single_byte.rs:ascii_ext_encode_from_str", "src/shiftjis_whatwg.rs:encode_from_str", "src/big5_whatwg.rs:encode_from_str"]}
{"id": "C07", "title": "UTF encoders never fail", "statement": "encode_from_str of utf8, utf16_be, utf16_le, utf32_be, utf32_le never returns Err.", "quantifier": "five encodings x all texts x all buffers", "why_tests_cant": "every Unicode scalar value and every buffer", "anchors": ["src/utf8.rs:encode_from_str", "src/utf16_be.rs:encode_from_str", "src/utf16_le.rs:encode_from_str", "src/utf32_be.rs:encode_from_str", "src/utf32_le.rs:encode_from_str"]}
{"id": "C08", "title": "Output buffer is only written where reported", "statement": "Both functions leave the length of out_buffer unchanged, put the reported output at its start, and leave every byte after the reported output (Ok slice length, or output_bytes_written on Err) exactly as it was.", "quantifier": "all encodings x all inputs x all buffers with arbitrary previous contents x is_end", "why_tests_cant": "a stray write past the reported end is a history effect that assertions on the result miss", "anchors": ["src/utf8.rs:encode_from_str", "src/utf16_be.rs:encode_from_str", "src/utf16_le.rs:encode_from_str", "src/utf32_be.rs:encode_from_str", "src/utf32_le.rs:encode_from_str", "src/single_byte.rs:ascii_ext_encode_from_str", "src/shiftjis_whatwg.rs:encode_from_str", "src/big5_whatwg.rs:encode_from_str", "src/utf8.rs:decode_to_str", "src/utf16_be.rs:decode_to_str", "src/utf16_le.rs:decode_to_str", "src/utf32_be.rs:decode_to_str", "src/utf32_le.rs:decode_to_str", "src/single_byte.rs:ascii_ext_decode_to_str", "src/shiftjis_whatwg.rs:decode_to_str", "src/big5_whatwg.rs:decode_to_str"]}
{"id": "C09", "title": "Result does not depend on what the buffer held", "statement": "Two calls with the same input and flag and buffers of equal length return equal results, whatever the buffers contained, so re-using one buffer for many calls is safe.", "quantifier": "all encodings x all inputs x all pairs of buffers of equal length", "why_tests_cant": "relates two executions", "anchors": ["src/utf8.rs:encode_from_str", "src/utf16_be.rs:encode_from_str", "src/utf16_le.rs:encode_from_str", "src/utf32_be.rs:encode_from_str", "src/utf32_le.rs:encode_from_str", "src/single_byte.rs:ascii_ext_encode_from_str", "src/shiftjis_whatwg.rs:encode_from_str", "src/big5_whatwg.rs:encode_from_str", "src/utf8.rs:decode_to_str", "src/utf16_be.rs:decode_to_str", "src/utf16_le.rs:decode_to_str", "src/utf32_be.rs:decode_to_str", "src/utf32_le.rs:decode_to_str", "src/single_byte.rs:ascii_ext_decode_to_str", "src/shiftjis_whatwg.rs:decode_to_str", "src/big5_whatwg.rs:decode_to_str", "src/lib.rs"]}
{"id": "C10", "title": "Decode Ok: text is exactly the meaning of the consumed bytes", "statement": "If decode_to_str returns Ok((text, n)) then n <= input.len(), input[..n] splits into complete code sequences of the source encoding and text is the concatenation of their published meanings.", "quantifier": "all encodings x all byte inputs x all buffers x is_end", "why_tests_cant": "must hold for all malformed and well-formed inputs", "anchors": ["src/utf8.rs:decode_to_str", "src/utf16_be.rs:decode_to_str", "src/utf16_le.rs:decode_to_str", "src/utf32_be.rs:decode_to_str", "src/utf32_le.rs:decode_to_str", "src/single_byte.rs:ascii_ext_decode_to_str", "src/shiftjis_whatwg.rs:decode_to_str", "src/big5_whatwg.rs:decode_to_str", "src/lib.rs"]}
{"id": "C11", "title": "Decode Ok: stops only for a documented reason", "statement": "If decode_to_str returns Ok((text, n)) with n < input.len(), then either the next complete code sequence's text does not fit in the space left in out_buffer, or the buffer is completely full, or is_end is false and the remainder is an unfinished tail, shorter than 4 bytes. An unfinished tail is one that is shorter than its first bytes announce (UTF-8: by the high bits of the lead byte; UTF-16: one byte, or a high surrogate with 0 or 1 further bytes; UTF-32: 1 to 3 bytes; Shift JIS and Big5: a lone lead byte).", "quantifier": "all encodings x all byte inputs x all buffers x is_end", "why_tests_cant": "maximality over all buffer sizes and cut points", "anchors": ["src/utf8.rs:decode_to_str", "src/utf16_be.rs:decode_to_str", "src/utf16_le.rs:decode_to_str", "src/utf32_be.rs:decode_to_str", "src/utf32_le.rs:decode_to_str", "src/single_byte.rs:ascii_ext_decode_to_str", "src/shiftjis_whatwg.rs:decode_to_str", "src/big5_whatwg.rs:decode_to_str", "src/lib.rs"]}
{"id": "C12", "title": "Decode Err pinpoints the first undecodable data", "statement": "If decode_to_str returns Err then input[..error_range.0] is decodable, out_buffer[..output_bytes_written] is exactly its text in UTF-8, and no complete code sequence of the encoding is a prefix of input[error_range.0..].", "quantifier": "all encodings x all byte inputs x all buffers x is_end", "why_tests_cant": "first error may be anywhere in unbounded input", "anchors": ["src/utf8.rs:decode_to_str", "src/utf16_be.rs:decode_to_str", "src/utf16_le.rs:decode_to_str", "src/utf32_be.rs:decode_to_str", "src/utf32_le.rs:decode_to_str", "src/single_byte.rs:ascii_ext_decode_to_str", "src/shiftjis_whatwg.rs:decode_to_str", "src/big5_whatwg.rs:decode_to_str", "src/lib.rs:DecodeError"]}
{"id": "C13", "title": "Decode errors are final", "statement": "If decode_to_str returns Err with is_end = false then no bytes appended to the input could make the data at error_range.0 decodable: an error is never reported for data that is merely incomplete.", "quantifier": "all encodings x all byte inputs x all continuations", "why_tests_cant": "quantifies over all possible continuations of the stream", "anchors": ["src/utf8.rs:decode_to_str", "src/utf16_be.rs:decode_to_str", "src/utf16_le.rs:decode_to_str", "src/utf32_be.rs:decode_to_str", "src/utf32_le.rs:decode_to_str", "src/single_byte.rs:ascii_ext_decode_to_str", "src/shiftjis_whatwg.rs:decode_to_str", "src/big5_whatwg.rs:decode_to_str"]}
{"id": "C14", "title": "Decode completeness", "statement": "If the whole input is a concatenation of complete code sequences and the buffer can hold its text, decode_to_str returns Ok with that text and consumes all input, for both values of is_end.", "quantifier": "all encodings x all valid inputs x all sufficient buffers x is_end", "why_tests_cant": "unbounded inputs", "anchors": ["src/utf8.rs:decode_to_str", "src/utf16_be.rs:decode_to_str", "src/utf16_le.rs:decode_to_str", "src/utf32_be.rs:decode_to_str", "src/utf32_le.rs:decode_to_str", "src/single_byte.rs:ascii_ext_decode_to_str", "src/shiftjis_whatwg.rs:decode_to_str", "src/big5_whatwg.rs:decode_to_str"]}
{"id": "C15", "title": "Malformed input is never silently accepted", "statement": "If decode_to_str with is_end = true returns Ok and at least four bytes of the buffer are left, the input was consumed and well formed; an input with an undecodable part yields Err once the output before it fits with a byte to spare.", "quantifier": "all encodings x all byte inputs x all buffers", "why_tests_cant": "negative property over all malformed inputs", "anchors": ["src/utf8.rs:decode_to_str", "src/utf16_be.rs:decode_to_str", "src/utf16_le.rs:decode_to_str", "src/utf32_be.rs:decode_to_str", "src/utf32_le.rs:decode_to_str", "src/single_byte.rs:ascii_ext_decode_to_str", "src/shiftjis_whatwg.rs:decode_to_str", "src/big5_whatwg.rs:decode_to_str"]}
{"id": "C16", "title": "Decode error range is inside the input and non-empty", "statement": "On Err, error_range.0 < error_range.1 <= input.len(), and cause is InvalidData, so resuming at error_range.1 is always in bounds and makes progress.", "quantifier": "all encodings x all byte inputs x all buffers x is_end", "why_tests_cant": "all inputs including truncated ones", "anchors": ["src/utf8.rs:decode_to_str", "src/utf16_be.rs:decode_to_str", "src/utf16_le.rs:decode_to_str", "src/utf32_be.rs:decode_to_str", "src/utf32_le.rs:decode_to_str", "src/single_byte.rs:ascii_ext_decode_to_str", "src/shiftjis_whatwg.rs:decode_to_str", "src/big5_whatwg.rs:decode_to_str", "src/lib.rs:DecodeErrorCause"]}
{"id": "C17", "title": "Decoding is independent of how the bytes are chunked", "statement": "Feeding a byte stream to decode_to_str through any sequence of windows (each a prefix of what remains, cut anywhere, is_end only on the last) and any sequence of buffers produces, when it completes or errors, the same text and the same absolute error position as any other such sequence.", "quantifier": "all encodings x all byte streams x all schedules of windows and buffers", "why_tests_cant": "the number of schedules is exponential; statement relates pairs of executions", "anchors": ["src/utf8.rs:decode_to_str", "src/utf16_be.rs:decode_to_str", "src/utf16_le.rs:decode_to_str", "src/utf32_be.rs:decode_to_str", "src/utf32_le.rs:decode_to_str", "src/single_byte.rs:ascii_ext_decode_to_str", "src/shiftjis_whatwg.rs:decode_to_str", "src/big5_whatwg.rs:decode_to_str", "src/lib.rs"]}
{"id": "C18", "title": "Chunked decoding reports the same error range (every encoding but UTF-8)", "statement": "For every encoding except UTF-8, the whole absolute error_range, not only its start, is the same for every schedule of chunks and buffers. For UTF-8 this is false: the start is the same (C17) but the end of the range depends on how much of the input the failing call saw (FF 80: range 0..2 in one call, 0..1 when the chunk ends after FF).", "quantifier": "all encodings x all byte streams x all schedules", "why_tests_cant": "relates pairs of executions", "anchors": ["src/utf8.rs:decode_to_str", "src/utf16_be.rs:decode_to_str", "src/utf16_le.rs:decode_to_str", "src/utf32_be.rs:decode_to_str", "src/utf32_le.rs:decode_to_str", "src/single_byte.rs:ascii_ext_decode_to_str", "src/shiftjis_whatwg.rs:decode_to_str", "src/big5_whatwg.rs:decode_to_str"]}
{"id": "C19", "title": "Encoding is independent of how the text is chunked", "statement": "Feeding a text to encode_from_str through any sequence of windows (cut at any char boundary) and buffers produces the same bytes and the same error char and position as any other sequence.", "quantifier": "all encodings x all texts x all schedules", "why_tests_cant": "relates pairs of executions over exponentially many schedules", "anchors": ["src/utf8.rs:encode_from_str", "src/utf16_be.rs:encode_from_str", "src/utf16_le.rs:encode_from_str", "src/utf32_be.rs:encode_from_str", "src/utf32_le.rs:encode_from_str", "src/single_byte.rs:ascii_ext_encode_from_str", "src/shiftjis_whatwg.rs:encode_from_str", "src/big5_whatwg.rs:encode_from_str", "src/lib.rs"]}
{"id": "C20", "title": "Decode progress", "statement": "With a buffer of at least 4 bytes and non-empty input, decode_to_str with is_end = true either errors or consumes at least one byte; with is_end = false it may consume nothing only if the input is shorter than 4 bytes.", "quantifier": "all encodings x all byte inputs x all buffers of length >= 4", "why_tests_cant": "all inputs; a single stuck state hangs the documented streaming loop", "anchors": ["src/utf8.rs:decode_to_str", "src/utf16_be.rs:decode_to_str", "src/utf16_le.rs:decode_to_str", "src/utf32_be.rs:decode_to_str", "src/utf32_le.rs:decode_to_str", "src/single_byte.rs:ascii_ext_decode_to_str", "src/shiftjis_whatwg.rs:decode_to_str", "src/big5_whatwg.rs:decode_to_str"]}
{"id": "C21", "title": "Encode progress", "statement": "With a buffer of at least 4 bytes and non-empty text, encode_from_str either errors or consumes at least one char, except Big5 with is_end = false on the one-char texts U+00CA / U+00EA.", "quantifier": "all encodings x all texts x all buffers of length >= 4", "why_tests_cant": "all inputs", "anchors": ["src/utf8.rs:encode_from_str", "src/utf16_be.rs:encode_from_str", "src/utf16_le.rs:encode_from_str", "src/utf32_be.rs:encode_from_str", "src/utf32_le.rs:encode_from_str", "src/single_byte.rs:ascii_ext_encode_from_str", "src/shiftjis_whatwg.rs:encode_from_str", "src/big5_whatwg.rs:encode_from_str"]}
{"id": "C22", "title": "The documented streaming loop terminates with the whole decoding", "statement": "The loop described in the crate docs (append chunk to unprocessed bytes, decode, emit, drop consumed, repeat) terminates for every chunking and every buffer of at least 4 bytes, and yields the text of the whole stream or the first error.", "quantifier": "all encodings x all lists of chunks x all buffers >= 4 bytes", "why_tests_cant": "termination and correctness over all histories", "anchors": ["src/utf8.rs:decode_to_str", "src/utf16_be.rs:decode_to_str", "src/utf16_le.rs:decode_to_str", "src/utf32_be.rs:decode_to_str", "src/utf32_le.rs:decode_to_str", "src/single_byte.rs:ascii_ext_decode_to_str", "src/shiftjis_whatwg.rs:decode_to_str", "src/big5_whatwg.rs:decode_to_str", "src/lib.rs"]}
{"id": "C23", "title": "Lossless text round trip", "statement": "For UTF-8, UTF-16, UTF-32, all single-byte encodings and Big5: decoding the complete encoding of a text gives back the text.", "quantifier": "those encodings x all encodable texts", "why_tests_cant": "unbounded texts, 18k-entry tables", "anchors": ["src/utf8.rs:encode_from_str", "src/utf16_be.rs:encode_from_str", "src/utf16_le.rs:encode_from_str", "src/utf32_be.rs:encode_from_str", "src/utf32_le.rs:encode_from_str", "src/single_byte.rs:ascii_ext_encode_from_str", "src/shiftjis_whatwg.rs:encode_from_str", "src/big5_whatwg.rs:encode_from_str", "src/utf8.rs:decode_to_str", "src/utf16_be.rs:decode_to_str", "src/utf16_le.rs:decode_to_str", "src/utf32_be.rs:decode_to_str", "src/utf32_le.rs:decode_to_str", "src/single_byte.rs:ascii_ext_decode_to_str", "src/shiftjis_whatwg.rs:decode_to_str", "src/big5_whatwg.rs:decode_to_str", "src/lib.rs"]}
{"id": "C24", "title": "Lossless byte round trip", "statement": "For UTF-8, UTF-16, UTF-32 and all single-byte encodings: encoding the text of a decodable byte string gives back the bytes.", "quantifier": "those encodings x all decodable byte strings", "why_tests_cant": "unbounded byte strings", "anchors": ["src/utf8.rs:encode_from_str", "src/utf16_be.rs:encode_from_str", "src/utf16_le.rs:encode_from_str", "src/utf32_be.rs:encode_from_str", "src/utf32_le.rs:encode_from_str", "src/single_byte.rs:ascii_ext_encode_from_str", "src/shiftjis_whatwg.rs:encode_from_str", "src/big5_whatwg.rs:encode_from_str", "src/utf8.rs:decode_to_str", "src/utf16_be.rs:decode_to_str", "src/utf16_le.rs:decode_to_str", "src/utf32_be.rs:decode_to_str", "src/utf32_le.rs:decode_to_str", "src/single_byte.rs:ascii_ext_decode_to_str", "src/shiftjis_whatwg.rs:decode_to_str", "src/big5_whatwg.rs:decode_to_str"]}
{"id": "C25", "title": "Exactly which texts Shift JIS encoding preserves", "statement": "The module doc says encoding to Shift JIS is lossless. It is not: decoding what encode_from_str wrote gives back the text if and only if the text contains none of U+00A5 (yen sign), U+203E (overline) and U+2212 (minus sign).", "quantifier": "all encodable texts", "why_tests_cant": "all chars", "anchors": ["src/shiftjis_whatwg.rs:encode_from_str", "src/shiftjis_whatwg.rs module doc"]}
{"id": "C26", "title": "Shift JIS round trip up to three documented-nowhere substitutions", "statement": "Decoding the Shift JIS encoding of a text gives the text with U+00A5 -> U+005C, U+203E -> U+007E, U+2212 -> U+FF0D and every other char unchanged.", "quantifier": "all encodable texts", "why_tests_cant": "all chars and texts", "anchors": ["src/shiftjis_whatwg.rs:encode_from_str", "src/shiftjis_whatwg.rs:decode_to_str"]}
{"id": "C27", "title": "Legacy decoders' text is stable under re-encoding", "statement": "For Shift JIS and Big5 (lossy decoders) every text they produce from decodable bytes can be encoded, and decoding that encoding gives the same text again.", "quantifier": "all decodable byte strings", "why_tests_cant": "all table entries and all concatenations (including texts whose pieces join into two-char codes)", "anchors": ["src/shiftjis_whatwg.rs", "src/big5_whatwg.rs"]}
{"id": "C28", "title": "Single-byte codecs implement the published mapping files", "statement": "For each of the 31 non-UTF single-byte modules a byte decodes to exactly the char its mapping file in encoding_tables/single_byte gives (error when the file has none) and a char encodes to exactly the byte that maps to it (error when none); ASCII maps identically; iso_8859_1 is the identity on U+0000..U+00FF; ascii accepts exactly bytes below 0x80.", "quantifier": "all modules x all bytes x all chars", "why_tests_cant": "1.1M chars x 32 tables; the encode side rests on binary search over sorted tables", "anchors": ["src/single_byte.rs", "src/generated/single_byte/*", "encoding_tables/single_byte/ascii_ext/*.txt"]}
{"id": "C29", "title": "Shift JIS decoder implements index jis0208", "statement": "A one- or two-byte code decodes to exactly what the WHATWG Shift_JIS decoder prescribes from encoding_tables/whatwg/index-jis0208.txt, and everything else is an error.", "quantifier": "all byte sequences", "why_tests_cant": "the index has 7724 entries and the decoder adds special ranges", "anchors": ["src/shiftjis_whatwg.rs:decode_to_str", "src/generated/whatwg/shiftjis_whatwg_tables.rs.inc", "encoding_tables/whatwg/index-jis0208.txt"]}
{"id": "C30", "title": "Shift JIS encoder picks the WHATWG pointer", "statement": "A char encodes to its special one-byte code, its EUDC code, or the first pointer of index jis0208 outside 8272..8835 that maps to it; a char with none is an error.", "quantifier": "all chars", "why_tests_cant": "1.1M chars; binary search over 7326 entries", "anchors": ["src/shiftjis_whatwg.rs:encode_from_str", "encoding_tables/whatwg/generate_shiftjis.py"]}
{"id": "C31", "title": "Big5 decoder implements index big5", "statement": "A one- or two-byte code decodes to exactly what the WHATWG Big5 decoder prescribes from index-big5.txt (with the four two-char codes), and everything else is an error.", "quantifier": "all byte sequences", "why_tests_cant": "18590 entries", "anchors": ["src/big5_whatwg.rs:decode_to_str", "encoding_tables/whatwg/index-big5.txt"]}
{"id": "C32", "title": "Big5 encoder picks the documented pointer, and two-char codes greedily", "statement": "A char encodes to the first pointer of index big5 mapping to it (last one for U+2550, U+255E, U+2561, U+256A, U+5341, U+5345); U+00CA/U+00EA followed by U+0304/U+030C encodes to the single two-char code.", "quantifier": "all texts", "why_tests_cant": "18490 entries, look-ahead state, is_end", "anchors": ["src/big5_whatwg.rs:encode_from_str", "src/big5_whatwg.rs:map_grapheme", "encoding_tables/whatwg/generate_big5.py"]}
{"id": "C33", "title": "Decode errors swallow no ASCII (but for a truncated UTF-8 tail)", "statement": "The error_range reported by decode_to_str of an ASCII-compatible encoding (utf8, single-byte, Shift JIS, Big5) contains no byte below 0x80, except for UTF-8 when the range runs to the end of the input: with is_end, the bytes E3 41 are reported as one error 0..2, which swallows the letter A.", "quantifier": "those encodings x all byte inputs x buffers x is_end", "why_tests_cant": "all malformed inputs", "anchors": ["src/utf8.rs:decode_to_str", "src/shiftjis_whatwg.rs:decode_to_str", "src/big5_whatwg.rs:decode_to_str", "src/single_byte.rs:ascii_ext_decode_to_str"]}
{"id": "C34", "title": "ASCII transparency", "statement": "For utf8, all single-byte encodings, Shift JIS and Big5: encoding ASCII text gives the same bytes and decoding ASCII bytes gives the same text.", "quantifier": "those encodings x all ASCII strings", "why_tests_cant": "unbounded strings", "anchors": ["src/utf8.rs", "src/single_byte.rs", "src/shiftjis_whatwg.rs", "src/big5_whatwg.rs"]}
{"id": "C35", "title": "Little and big endian variants mirror each other", "statement": "utf16_le / utf32_le output is utf16_be / utf32_be output with the bytes of each code unit swapped, with equal consumed counts, and they decode correspondingly swapped input identically.", "quantifier": "all texts / byte strings x all buffers x is_end", "why_tests_cant": "relates two modules on all inputs", "anchors": ["src/utf16_be.rs:encode_from_str", "src/utf16_le.rs:encode_from_str", "src/utf32_be.rs:encode_from_str", "src/utf32_le.rs:encode_from_str", "src/utf16_be.rs:decode_to_str", "src/utf16_le.rs:decode_to_str", "src/utf32_be.rs:decode_to_str", "src/utf32_le.rs:decode_to_str"]}
{"id": "C36", "title": "is_end only matters for an incomplete tail", "statement": "decode_to_str with is_end = true returns the same as with is_end = false unless the is_end = false call stops (Ok) at a non-empty undecodable tail of at most 3 bytes, in which case the is_end = true call reports an error exactly there.", "quantifier": "all encodings x all inputs x all buffers", "why_tests_cant": "relates two executions on all inputs", "anchors": ["src/utf8.rs:decode_to_str", "src/utf16_be.rs:decode_to_str", "src/utf16_le.rs:decode_to_str", "src/utf32_be.rs:decode_to_str", "src/utf32_le.rs:decode_to_str", "src/single_byte.rs:ascii_ext_decode_to_str", "src/shiftjis_whatwg.rs:decode_to_str", "src/big5_whatwg.rs:decode_to_str"]}
{"id": "C37", "title": "Bigger buffers only extend the result", "statement": "Given the same input, a longer out_buffer yields at least the consumed count and the output of a shorter one as a prefix.", "quantifier": "all encodings x all inputs x all pairs of buffer lengths", "why_tests_cant": "relates pairs of executions", "anchors": ["src/utf8.rs:encode_from_str", "src/utf16_be.rs:encode_from_str", "src/utf16_le.rs:encode_from_str", "src/utf32_be.rs:encode_from_str", "src/utf32_le.rs:encode_from_str", "src/single_byte.rs:ascii_ext_encode_from_str", "src/shiftjis_whatwg.rs:encode_from_str", "src/big5_whatwg.rs:encode_from_str", "src/utf8.rs:decode_to_str", "src/utf16_be.rs:decode_to_str", "src/utf16_le.rs:decode_to_str", "src/utf32_be.rs:decode_to_str", "src/utf32_le.rs:decode_to_str", "src/single_byte.rs:ascii_ext_decode_to_str", "src/shiftjis_whatwg.rs:decode_to_str", "src/big5_whatwg.rs:decode_to_str"]}
{"id": "C38", "title": "Worst-case output size", "statement": "A buffer of k * input.len() bytes always suffices for a complete conversion, with k = 1 (utf8, utf32, ascii decode), 3/2 (utf16 decode), 2 (big5 and six ISO 8859 parts decode), 3 (the other single-byte encodings and Shift JIS decode) and on the encode side 1 (utf8, single-byte, Shift JIS, Big5), 2 (utf16), 4 (utf32). No smaller factor suffices.", "quantifier": "all encodings x all inputs", "why_tests_cant": "a bound over all inputs", "anchors": ["src/utf8.rs:encode_from_str", "src/utf16_be.rs:encode_from_str", "src/utf16_le.rs:encode_from_str", "src/utf32_be.rs:encode_from_str", "src/utf32_le.rs:encode_from_str", "src/single_byte.rs:ascii_ext_encode_from_str", "src/shiftjis_whatwg.rs:encode_from_str", "src/big5_whatwg.rs:encode_from_str", "src/utf8.rs:decode_to_str", "src/utf16_be.rs:decode_to_str", "src/utf16_le.rs:decode_to_str", "src/utf32_be.rs:decode_to_str", "src/utf32_le.rs:decode_to_str", "src/single_byte.rs:ascii_ext_decode_to_str", "src/shiftjis_whatwg.rs:decode_to_str", "src/big5_whatwg.rs:decode_to_str"]}
{"id": "C39", "title": "Skip-and-continue decoding always finishes", "statement": "Resuming decode_to_str after error_range.1 each time (lossy decoding) processes the entire input in finitely many calls (with buffer >= 4), whatever the bytes.", "quantifier": "all encodings x all byte inputs x buffers >= 4", "why_tests_cant": "termination over all inputs", "anchors": ["src/utf8.rs:decode_to_str", "src/utf16_be.rs:decode_to_str", "src/utf16_le.rs:decode_to_str", "src/utf32_be.rs:decode_to_str", "src/utf32_le.rs:decode_to_str", "src/single_byte.rs:ascii_ext_decode_to_str", "src/shiftjis_whatwg.rs:decode_to_str", "src/big5_whatwg.rs:decode_to_str", "src/lib.rs"]}
{"id": "C40", "title": "Exact error extents", "statement": "UTF-32: 4 bytes (or the 1..3 byte tail); UTF-16: the 2-byte unpaired unit (or the 1..3 byte tail); single byte: 1; Shift JIS / Big5: the lead byte alone, or lead and trail when the trail byte is not ASCII and the lead byte itself is acceptable; UTF-8 with untruncated data: through the last byte before the next possible start byte.", "quantifier": "all encodings x all malformed inputs", "why_tests_cant": "all malformed inputs", "anchors": ["src/utf8.rs:decode_to_str", "src/utf16_be.rs:decode_to_str", "src/utf16_le.rs:decode_to_str", "src/utf32_be.rs:decode_to_str", "src/utf32_le.rs:decode_to_str", "src/single_byte.rs:ascii_ext_decode_to_str", "src/shiftjis_whatwg.rs:decode_to_str", "src/big5_whatwg.rs:decode_to_str"]}
{"id": "C41", "title": "Encoding against the WHATWG encoders", "statement": "Big5: a char that has no pointer below 5024 in the WHATWG index is encoded to exactly the bytes of the WHATWG Big5 encoder, or is an error exactly if the WHATWG encoder reports one; a char that has such a pointer is always encoded to a code with a lead byte in 0x81..0xA0, which the WHATWG encoder never produces for it. Shift JIS: every char outside U+E000..U+E757 is encoded as by the WHATWG Shift_JIS encoder; the chars in that range, which have no code in WHATWG, are encoded to codes the WHATWG decoder maps back to them. For Big5 exactly 3837 chars are encoded although WHATWG has no code for them and exactly 57 get another code than WHATWG's.", "quantifier": "all chars; all texts made of such chars x all buffers x is_end", "why_tests_cant": "the exact set of chars on which two encoders agree is a statement about every char", "anchors": ["src/big5_whatwg.rs:encode_from_str", "src/shiftjis_whatwg.rs:encode_from_str", "encoding_tables/whatwg/generate_big5.py", "encoding_tables/whatwg/generate_shiftjis.py", "src/lib.rs"]}
{"id": "C42", "title": "Lossy decoding against the WHATWG decoders", "statement": "Decoding everything and putting U+FFFD in place of each reported error range gives exactly the text that the WHATWG decoder state machine (error mode replacement) gives, for Shift JIS, Big5, UTF-16BE, UTF-16LE and the single-byte encodings. For UTF-8 the two agree up to and including the first replacement (so on all well-formed input), and can differ after it. (For the single-byte encodings, the standard's algorithm with the mapping file in encoding_tables as its index; the standard's own indexes have some more entries, such as U+0081 for the byte 0x81 of windows-1252.)", "quantifier": "all encodings x all byte inputs x all buffers of at least 4 bytes", "why_tests_cant": "equivalence with a state machine over all, mostly malformed, byte strings", "anchors": ["src/shiftjis_whatwg.rs:decode_to_str", "src/big5_whatwg.rs:decode_to_str", "src/utf16_be.rs:decode_to_str", "src/utf16_le.rs:decode_to_str", "src/utf8.rs:decode_to_str", "src/single_byte.rs:ascii_ext_decode_to_str", "src/lib.rs"]}
{"id": "C43", "title": "The streaming loop for encoding terminates with the whole encoding", "statement": "Feeding a text to encode_from_str chunk by chunk, with any buffer of at least 4 bytes, emitting each output and keeping the unconsumed text, terminates and yields the encoding of the whole text, or stops at the first unencodable char with its exact position in the whole text.", "quantifier": "all encodings x all lists of text chunks x all buffers >= 4 bytes", "why_tests_cant": "termination and correctness over all histories", "anchors": ["src/utf8.rs:encode_from_str", "src/utf16_be.rs:encode_from_str", "src/utf16_le.rs:encode_from_str", "src/utf32_be.rs:encode_from_str", "src/utf32_le.rs:encode_from_str", "src/single_byte.rs:ascii_ext_encode_from_str", "src/shiftjis_whatwg.rs:encode_from_str", "src/big5_whatwg.rs:encode_from_str", "src/lib.rs"]}
{"id": "C44", "title": "Encoding with replacement finishes and is exact", "statement": "A caller who writes an encodable replacement char whenever encode_from_str reports an error, and resumes after error_range, terminates for every text, and the output is the encoding of the maximal encodable runs with the replacement in place of exactly the unencodable chars.", "quantifier": "all encodings x all texts x all encodable replacement chars x all buffers >= 4 bytes", "why_tests_cant": "termination and correctness over all histories of errors", "anchors": ["src/utf8.rs:encode_from_str", "src/utf16_be.rs:encode_from_str", "src/utf16_le.rs:encode_from_str", "src/utf32_be.rs:encode_from_str", "src/utf32_le.rs:encode_from_str", "src/single_byte.rs:ascii_ext_encode_from_str", "src/shiftjis_whatwg.rs:encode_from_str", "src/big5_whatwg.rs:encode_from_str", "src/lib.rs"]}
{"id": "C45", "title": "Complete contract of decoding", "statement": "Every detail of what decode_to_str returns and leaves in the buffer follows from the encoding's published definition and five rules: everything decodable that fits is decoded; Ok stops before a code whose text does not fit; UTF-8, Shift JIS and Big5 stop when the buffer is exactly full; without is_end an unfinished code is left for later; anything else is InvalidData with the documented extent. An outcome occurs if and only if these rules allow it, and they allow exactly one.", "quantifier": "all encodings x all byte inputs x all buffers x is_end; all implementations that obey the rules", "why_tests_cant": "an if-and-only-if over all inputs", "anchors": ["src/utf8.rs:decode_to_str", "src/utf16_be.rs:decode_to_str", "src/utf16_le.rs:decode_to_str", "src/utf32_be.rs:decode_to_str", "src/utf32_le.rs:decode_to_str", "src/single_byte.rs:ascii_ext_decode_to_str", "src/shiftjis_whatwg.rs:decode_to_str", "src/big5_whatwg.rs:decode_to_str", "src/lib.rs"]}
{"id": "C46", "title": "Complete contract of encoding", "statement": "Every detail of what encode_from_str returns and leaves in the buffer follows from the encoding's published definition and five rules: everything encodable that fits is encoded; Ok stops before a code that does not fit; a char without a code is not looked at with less than 1 byte (Shift JIS: 2 bytes) of room; Big5 without is_end keeps back a final letter that may start a two-char code; anything else is an error for the char without a code. An outcome occurs if and only if these rules allow it, and they allow exactly one.", "quantifier": "all encodings x all texts x all buffers x is_end; all implementations that obey the rules", "why_tests_cant": "an if-and-only-if over all inputs", "anchors": ["src/utf8.rs:encode_from_str", "src/utf16_be.rs:encode_from_str", "src/utf16_le.rs:encode_from_str", "src/utf32_be.rs:encode_from_str", "src/utf32_le.rs:encode_from_str", "src/single_byte.rs:ascii_ext_encode_from_str", "src/shiftjis_whatwg.rs:encode_from_str", "src/big5_whatwg.rs:encode_from_str", "src/lib.rs"]}
{"id": "C47", "title": "No arithmetic overflow on any target or build profile", "statement": "With the fixed-width integers of any target whose usize has at least 16 bits, and for slices of any length Rust allows, every call of encode_from_str and decode_to_str returns exactly what it would with unbounded integers: no addition, subtraction or multiplication overflows, so debug builds do not panic and release builds do not wrap, and results do not depend on the target or the build profile.", "quantifier": "all targets with usize >= 16 bits x overflow checks on/off x all encodings x all inputs and buffers up to isize::MAX bytes x is_end", "why_tests_cant": "overflow depends on sizes near the limits of the address space and on the target, which tests do not reach", "anchors": ["src/utf8.rs", "src/utf16_be.rs", "src/utf16_le.rs", "src/utf32_be.rs", "src/utf32_le.rs", "src/single_byte.rs", "src/shiftjis_whatwg.rs", "src/big5_whatwg.rs"]}
{"id": "C48", "title": "The single-byte table generator is right for every mapping file", "statement": "For every mapping file that describes an extension of ASCII, the generator succeeds and emits a decode table of 128 entries that says what the file says, and an encode table with exactly the file's lines from byte 128 on, sorted by code point when no code point occurs twice. A file in which some ASCII byte does not stand for itself is rejected with an exception.", "quantifier": "all mapping files (any lines, in any order)", "why_tests_cant": "tests can only run the generator on the files at hand", "anchors": ["encoding_tables/single_byte/generate_ascii_ext_tables.py:generate_ascii_ext_encoding"]}
{"id": "C49", "title": "A generated single-byte module converts exactly as its mapping file says", "statement": "For every mapping file that describes an extension of ASCII with one byte per code point, the generated module compiles, and its encode_from_str and decode_to_str convert every input into every buffer exactly as the file prescribes, report the first byte or char without a line, and are inverse to each other.", "quantifier": "all mapping files x all inputs x all buffers", "why_tests_cant": "end to end over an unbounded set of mapping files and inputs", "anchors": ["encoding_tables/single_byte/generate_ascii_ext_tables.py", "src/single_byte.rs:ascii_ext_encode_from_str", "src/single_byte.rs:ascii_ext_decode_to_str"]}
{"id": "C50", "title": "The single-byte generator does not deduplicate", "statement": "If two bytes from 128 on stand for the same code point, both entries are put in the encode table, which is then not strictly sorted, although the script has code to keep only one.", "quantifier": "all mapping files with a duplicated code point", "why_tests_cant": "no shipped mapping file has a duplicate, so no test can show it", "anchors": ["encoding_tables/single_byte/generate_ascii_ext_tables.py:generate_ascii_ext_encoding"]}
{"id": "C51", "title": "The Shift JIS and Big5 table generators are right for every index file", "statement": "For every index file with at most one line per pointer, the generated decode table says what the file says and ends with its largest pointer, and the generated encode table is strictly sorted and has, for each code point, exactly the bytes of the preferred pointer (Shift JIS: the first outside 8272..8835; Big5: the last one for six code points, else the first). Converting a pointer to bytes and back gives the pointer.", "quantifier": "all index files; all pointers", "why_tests_cant": "tests can only run the generators on the files at hand", "anchors": ["encoding_tables/whatwg/generate_shiftjis.py", "encoding_tables/whatwg/generate_big5.py"]}
{"id": "C52", "title": "The committed tables are the generators' output on the published files", "statement": "The committed Shift JIS and Big5 tables equal, entry for entry, what the generators make of the published index files, and each single-byte encoding behaves on every call like the module generated from its published mapping file. The tables have not been edited by hand and are not stale.", "quantifier": "all table entries; all single-byte encodings x all calls", "why_tests_cant": "agreement of every call with a regenerated module", "anchors": ["src/generated", "encoding_tables/single_byte", "encoding_tables/whatwg"]}
{"id": "C53", "title": "Converting a concatenation is converting its parts", "statement": "If the first part of the input converts completely and the buffer has room for it, the result for the whole input is the output of the first part followed by the result for the rest into the rest of the buffer, with the consumed count and any error position shifted by the length of the first part. For Big5 encoding the cut must not separate the two chars of a common code.", "quantifier": "all encodings x all inputs x all ways to cut them x all buffers", "why_tests_cant": "ranges over all inputs and all cuts", "anchors": ["src/utf8.rs:decode_to_str", "src/utf16_be.rs:decode_to_str", "src/utf16_le.rs:decode_to_str", "src/utf32_be.rs:decode_to_str", "src/utf32_le.rs:decode_to_str", "src/shiftjis_whatwg.rs:decode_to_str", "src/big5_whatwg.rs:decode_to_str", "src/single_byte.rs:ascii_ext_decode_to_str", "src/utf8.rs:encode_from_str", "src/utf16_be.rs:encode_from_str", "src/utf16_le.rs:encode_from_str", "src/utf32_be.rs:encode_from_str", "src/utf32_le.rs:encode_from_str", "src/shiftjis_whatwg.rs:encode_from_str", "src/big5_whatwg.rs:encode_from_str", "src/single_byte.rs:ascii_ext_encode_from_str"]}
{"id": "C54", "title": "No byte order mark handling", "statement": "Decoding never drops or interprets a byte order mark: it comes out as U+FEFF like any other char, a mark in the other byte order does not switch the byte order, and encoding never adds one.", "quantifier": "the Unicode encodings x all inputs x all buffers", "why_tests_cant": "must hold whatever follows the mark and whatever the buffer", "anchors": ["src/utf8.rs:decode_to_str", "src/utf16_be.rs:decode_to_str", "src/utf16_le.rs:decode_to_str", "src/utf32_be.rs:decode_to_str", "src/utf32_le.rs:decode_to_str", "src/utf8.rs:encode_from_str", "src/utf16_be.rs:encode_from_str", "src/utf16_le.rs:encode_from_str", "src/utf32_be.rs:encode_from_str", "src/utf32_le.rs:encode_from_str"]}
{"id": "C55", "title": "The property tests of the crate hold for every input and seed", "statement": "Every test in tests/property_tests.rs passes for every text, byte vector and buffer it may draw, not only for the sampled ones: the round trip tests return the original, the random input tests do not panic, and the loops of the tests and of the example program terminate.", "quantifier": "all inputs the test strategies can generate", "why_tests_cant": "proptest draws a few hundred samples", "anchors": ["tests/property_tests.rs", "examples/wrapper.rs:main"]}
{"id": "C56", "title": "Transcoding through two buffers", "statement": "A client that decodes a piece at a time into one buffer and encodes the text collected so far into another ends, does not panic, and yields bytes exactly if the whole input means a text that has an encoding; the bytes are that encoding, whatever the sizes of the two buffers.", "quantifier": "all pairs of encodings x all inputs x all buffers of at least four bytes", "why_tests_cant": "the pieces depend on both buffer sizes and on the input", "anchors": ["src/lib.rs", "src/utf8.rs:decode_to_str", "src/utf16_be.rs:decode_to_str", "src/utf16_le.rs:decode_to_str", "src/utf32_be.rs:decode_to_str", "src/utf32_le.rs:decode_to_str", "src/shiftjis_whatwg.rs:decode_to_str", "src/big5_whatwg.rs:decode_to_str", "src/single_byte.rs:ascii_ext_decode_to_str", "src/utf8.rs:encode_from_str", "src/utf16_be.rs:encode_from_str", "src/utf16_le.rs:encode_from_str", "src/utf32_be.rs:encode_from_str", "src/utf32_le.rs:encode_from_str", "src/shiftjis_whatwg.rs:encode_from_str", "src/big5_whatwg.rs:encode_from_str", "src/single_byte.rs:ascii_ext_encode_from_str"]}
{"id": "C57", "title": "More input never takes back what was converted", "statement": "If a call with is_end = false returned some output, the same call on a longer input (with either flag) succeeds with at least that output and consumed count, or reports an error after it. If it reported an error, the call on the longer input reports the same error and writes the same bytes; only for UTF-8 the end of the range may move further.", "quantifier": "all encodings x all inputs x all continuations x all buffers x both flags", "why_tests_cant": "it compares a call with the calls on every possible continuation of its input", "anchors": ["src/lib.rs", "src/utf8.rs:decode_to_str", "src/utf16_be.rs:decode_to_str", "src/utf16_le.rs:decode_to_str", "src/utf32_be.rs:decode_to_str", "src/utf32_le.rs:decode_to_str", "src/shiftjis_whatwg.rs:decode_to_str", "src/big5_whatwg.rs:decode_to_str", "src/single_byte.rs:ascii_ext_decode_to_str", "src/utf8.rs:encode_from_str", "src/utf16_be.rs:encode_from_str", "src/utf16_le.rs:encode_from_str", "src/utf32_be.rs:encode_from_str", "src/utf32_le.rs:encode_from_str", "src/shiftjis_whatwg.rs:encode_from_str", "src/big5_whatwg.rs:encode_from_str", "src/single_byte.rs:ascii_ext_encode_from_str"]}
{"id": "C58", "title": "Exact sizes", "statement": "Every char takes a fixed number of bytes in each encoding (in Big5 a combining mark U+0304 or U+030C takes none, because it shares the code of the char before it). The output of an encoder, the bytes consumed by a decoder, output_bytes_written and the start of a decoding error range are the sums over the chars converted, so decoding and re-encoding keeps the length, and a conversion is complete in one call exactly if the buffer has at least that many bytes.", "quantifier": "all encodings x all inputs x all buffers x both flags", "why_tests_cant": "sizes are sums over arbitrary texts; the buffer may have any length", "anchors": ["src/lib.rs", "src/utf8.rs:decode_to_str", "src/utf16_be.rs:decode_to_str", "src/utf16_le.rs:decode_to_str", "src/utf32_be.rs:decode_to_str", "src/utf32_le.rs:decode_to_str", "src/shiftjis_whatwg.rs:decode_to_str", "src/big5_whatwg.rs:decode_to_str", "src/single_byte.rs:ascii_ext_decode_to_str", "src/utf8.rs:encode_from_str", "src/utf16_be.rs:encode_from_str", "src/utf16_le.rs:encode_from_str", "src/utf32_be.rs:encode_from_str", "src/utf32_le.rs:encode_from_str", "src/shiftjis_whatwg.rs:encode_from_str", "src/big5_whatwg.rs:encode_from_str", "src/single_byte.rs:ascii_ext_encode_from_str"]}
{"id": "C59", "title": "The generated test data", "statement": "From the lines of the published Shift JIS or Big5 index, in any order, the test data generators raise no exception and write, in matching lines, one code and its text for every line of the index (for encoding: for every code point its preferred code), with the ASCII bytes and, for Big5, the four codes of two code points; the four tests of tests/shiftjis.rs and tests/big5.rs pass on these files, the decoding tests on the files made from any lines of the index.", "quantifier": "all lists of lines of the index (decoding), all orders of the lines of the index (encoding)", "why_tests_cant": "the tests run on one pair of files, made from the whole index in one order", "anchors": ["encoding_tables/whatwg/generate_shiftjis.py:generate_shiftjis_test_data", "encoding_tables/whatwg/generate_big5.py:generate_big5_test_data", "tests/shiftjis.rs", "tests/big5.rs", "src/shiftjis_whatwg.rs", "src/big5_whatwg.rs"]}
{"id": "C60", "title": "From the text of a mapping file to the tokens of the generated source", "statement": "Given the text of a mapping file (lines ended by LF, CR LF or CR, comments, empty and short lines, words separated by white space, hexadecimal and decimal numerals) that describes an extension of ASCII with one byte per code point, generate_ascii_ext_tables.py writes a text whose Rust tokens are those of a module with a decode table of 128 chars and an encode table, and with these tables the two conversion functions do what the file says. If a byte below 128 does not stand for itself, an exception is raised and the output file is left empty. generate_shiftjis.py and generate_big5.py write the tokens of the decode table and of the strictly sorted encode table with the preferred codes.", "quantifier": "all texts of mapping files x (for the functions) all inputs x all buffers", "why_tests_cant": "the generators are only ever run on the 32 files of the repository; other spacing, line ends or numbers of digits are never tried", "anchors": ["encoding_tables/single_byte/generate_ascii_ext_tables.py:generate_ascii_ext_encoding", "encoding_tables/whatwg/generate_shiftjis.py:load_table_file", "encoding_tables/whatwg/generate_shiftjis.py:generate_shiftjis_tables", "encoding_tables/whatwg/generate_big5.py:load_table_file", "encoding_tables/whatwg/generate_big5.py:generate_big5_tables"]}
{"id": "C61", "title": "The repository's generated sources are what its generators write for its mapping files", "statement": "For each of the 30 extensions of ASCII, for Shift JIS and for Big5: the text of the mapping file in the repository is a well-formed mapping file with the published assignments; the generator, given that text, finishes and writes, character for character, the generated source in the repository; and the tokens of that source are those of a module with a decode and an encode table with which the crate's conversion functions are exactly those of the encoding.", "quantifier": "all single-byte encodings but ASCII, Shift JIS and Big5 x (for the functions) all inputs, buffers and flags", "why_tests_cant": "no test compares the generated sources with the mapping files, and a test of some entries says nothing about the others or about inputs not tried", "anchors": ["encoding_tables/single_byte/generate_ascii_ext_tables.py:generate_ascii_ext_encoding", "encoding_tables/single_byte/ascii_ext/", "encoding_tables/whatwg/generate_shiftjis.py", "encoding_tables/whatwg/generate_big5.py", "encoding_tables/whatwg/index-jis0208.txt", "encoding_tables/whatwg/index-big5.txt", "src/generated/single_byte/", "src/generated/whatwg/shiftjis_whatwg_tables.rs.inc", "src/generated/whatwg/big5_whatwg_tables.rs.inc"]}
{"id": "C62", "title": "The repository's test data are what its generators write for its index files, and the tests pass on them", "statement": "Given the text of index-jis0208.txt (index-big5.txt) in the repository, generate_shiftjis_test_data (generate_big5_test_data) finishes and writes, byte for byte, the four files in tests/test_data/whatwg; and the tests shiftjis_whatwg_encode, shiftjis_whatwg_decode, big5_whatwg_encode and big5_whatwg_decode, which include these files, pass.", "quantifier": "the two index files and eight files of test data of the repository, every byte of them (the same for every index file in any order: C59)", "why_tests_cant": "a test that compares the crate with files of test data cannot tell whether the files say what the published index says", "anchors": ["encoding_tables/whatwg/generate_shiftjis.py:generate_shiftjis_test_data", "encoding_tables/whatwg/generate_big5.py:generate_big5_test_data", "tests/test_data/whatwg/", "tests/shiftjis.rs", "tests/big5.rs"]}
{"id": "C63", "title": "Low bytes stand only for themselves", "statement": "The bytes below 0x40 in Shift JIS and Big5, and below 0x80 in UTF-8 and the single-byte encodings (so NUL, line ends, quotes, digits, slash), are never part of a longer code: among the bytes a decoder consumed, those below the bound are exactly the chars below the bound in the text, in the same order, and likewise for what an encoder wrote. In particular encoded text without U+0000 has no NUL byte. The bound is exact: 0x40 (Shift JIS, Big5) and 0x80 (UTF-8) do occur inside longer codes.", "quantifier": "all encodings x all inputs x all buffers x both flags", "why_tests_cant": "a byte of a longer code that happens to be a delimiter corrupts only texts with that particular char", "anchors": ["src/utf8.rs:decode_to_str", "src/shiftjis_whatwg.rs:decode_to_str", "src/big5_whatwg.rs:decode_to_str", "src/single_byte.rs:ascii_ext_decode_to_str", "src/utf8.rs:encode_from_str", "src/shiftjis_whatwg.rs:encode_from_str", "src/big5_whatwg.rs:encode_from_str", "src/single_byte.rs:ascii_ext_encode_from_str"]}
{"id": "C64", "title": "Splitting and joining at a low byte", "statement": "Cutting encoded data at a byte below the bound of C63 and decoding the parts gives the parts of the text around that char, and decoding two parts joined by an ASCII byte gives their texts joined by that char; the same for cutting and joining a text before encoding. Cutting Shift JIS at a backslash byte does not work.", "quantifier": "all encodings with ASCII x all data before and after the byte x all buffers that are long enough", "why_tests_cant": "the data on both sides is arbitrary; a lookahead over the cut (as Big5 has) shows only for particular neighbours", "anchors": ["src/utf8.rs:decode_to_str", "src/shiftjis_whatwg.rs:decode_to_str", "src/big5_whatwg.rs:decode_to_str", "src/single_byte.rs:ascii_ext_decode_to_str", "src/utf8.rs:encode_from_str", "src/shiftjis_whatwg.rs:encode_from_str", "src/big5_whatwg.rs:encode_from_str", "src/single_byte.rs:ascii_ext_encode_from_str"]}
{"id": "C65", "title": "Lossy decoding line by line", "statement": "Decoding with U+FFFD for each error and going on after it gives a text that does not depend on the buffers; and in Shift JIS, Big5 and the single-byte encodings the text of data with a low byte in it (such as a line feed) is the text of the part before, the char, and the text of the part after, also if the parts are malformed. UTF-8 lacks this: an error at the end of the data can take in the line feed.", "quantifier": "all single-byte encodings, Shift JIS, Big5 x all data, well formed or not x all buffers of four bytes or more", "why_tests_cant": "malformed data has no structure to sample; the failing case for UTF-8 needs a truncated sequence just before the last line feed", "anchors": ["src/utf8.rs:decode_to_str", "src/shiftjis_whatwg.rs:decode_to_str", "src/big5_whatwg.rs:decode_to_str", "src/single_byte.rs:ascii_ext_decode_to_str"]}
{"id": "C66", "title": "Exactly which conversions can fail", "statement": "The decoders that never return an error are exactly those of the sixteen encodings that assign a char to each of the 256 bytes, where every byte string decodes to as many chars, into any buffer of three times its length. The encoders that never return an error are exactly the five of Unicode.", "quantifier": "all encodings x all inputs x all buffers x both flags", "why_tests_cant": "that a function never fails is a statement about all inputs", "anchors": ["src/single_byte.rs:ascii_ext_decode_to_str", "src/single_byte.rs:ascii_ext_encode_from_str", "src/generated/single_byte/", "src/utf8.rs", "src/utf16_be.rs", "src/utf16_le.rs", "src/utf32_be.rs", "src/utf32_le.rs", "src/shiftjis_whatwg.rs", "src/big5_whatwg.rs"]}
{"id": "C67", "title": "U+FFFD is never a legacy char", "statement": "In the encodings other than those of Unicode, decoded text never contains U+FFFD (which the crate's tables use for unassigned codes), encoders never consume it and report it where it stands, and so after lossy decoding the U+FFFD in the text are exactly as many as there were errors.", "quantifier": "all 33 encodings not of Unicode x all inputs x all buffers x both flags", "why_tests_cant": "one table entry that leaks the marker is seen only by the input that hits it", "anchors": ["src/single_byte.rs:ascii_ext_decode_to_str", "src/single_byte.rs:ascii_ext_encode_from_str", "src/generated/", "src/shiftjis_whatwg.rs", "src/big5_whatwg.rs"]}
{"id": "C68", "title": "UTF-8 and UTF-32BE keep the order of code points", "statement": "Comparing two texts encoded to UTF-8, or to UTF-32BE, byte by byte gives the same order as comparing the texts code point by code point, and the same for decoding. UTF-16BE does not have this.", "quantifier": "all pairs of texts x all buffers", "why_tests_cant": "the order of all pairs of texts follows from that of the codes of all pairs of chars, which is too many to try", "anchors": ["src/utf8.rs", "src/utf32_be.rs", "src/utf16_be.rs"]}
{"id": "C69", "title": "The standard library's text algorithms do what the crate relies on, at every address and on every machine", "statement": "UTF-8 validation finds the longest valid prefix and accepts exactly the UTF-8 of texts, for data at any address, with any word size and byte order, and its word-wise loop never reads unaligned or out of bounds. Iterating over the chars of a text gives each char with its byte offset. Encoding a char, its lengths, making a char from a number, finding char boundaries and binary search in a sorted table give the mathematically expected results.", "quantifier": "all byte slices x all addresses x word sizes x byte orders; all texts; all chars; all 32-bit numbers; all sorted tables and keys", "why_tests_cant": "the fast path of the validation depends on the address of the data modulo the word size and on where in a block the first non-ASCII byte is; a wrong bound reads outside the slice only for some lengths and alignments", "anchors": ["src/utf8.rs:decode_to_str", "src/utf16_be.rs", "src/utf32_le.rs", "src/single_byte.rs:ascii_ext_encode_from_str", "src/big5_whatwg.rs", "src/shiftjis_whatwg.rs"]}
{"id": "C70", "title": "The source text itself, run, does what is proved", "statement": "The text of the crate's source files, parsed and executed by the rules of the language, computes for every encoding, input and buffer exactly the result and the buffer contents that all other properties are about: it never gets into an undefined operation, an overflow or an endless loop, on machines with words of 16 bits or more, with and without overflow checks.", "quantifier": "all encodings x inputs x buffers (each up to isize::MAX bytes) x is_end x word sizes of at least 16 bits x overflow checks on or off", "why_tests_cant": "it is a statement about every run of the source text; tests run it on some inputs, on one machine", "anchors": ["src/lib.rs", "src/utf8.rs", "src/utf16_be.rs", "src/utf16_le.rs", "src/utf32_be.rs", "src/utf32_le.rs", "src/shiftjis_whatwg.rs", "src/big5_whatwg.rs", "src/single_byte.rs", "src/generated"]}
{"id": "C71", "title": "The wrapper program in examples does what it says", "statement": "encode_from_str and decode_to_str of examples/wrapper.rs, executed from the source texts of the program and of the crate, call the functions of the module of the encoding that is passed to them, for every encoding, with the right arguments, and return their result and leave their buffer. The program's main returns without a panic.", "quantifier": "all encodings x inputs x buffers (each up to isize::MAX bytes) x is_end x word sizes of at least 16 bits x overflow checks on or off", "why_tests_cant": "one swapped arm or argument of the two 38-way matches would only show with that encoding and with inputs on which the two differ", "anchors": ["examples/wrapper.rs:encode_from_str", "examples/wrapper.rs:decode_to_str", "examples/wrapper.rs:main"]}
{"id": "C72", "title": "The source text of the table generators, run, does what is proved", "statement": "The text of the three Python generators, parsed and executed by the rules of Python, terminates for every content of the mapping file, and writes exactly the files that the properties C48 to C60 are about: from every proper mapping file the Rust source of tables that say what the file says. If the mapping file is missing, nothing is written; if it does not describe an extension of ASCII, an exception is raised and the output is empty; if a line of an index file cannot be read, an exception is raised before anything is written.", "quantifier": "all contents of mapping files (with numerals without signs and underscores in lines that cannot be read) x paths x other files", "why_tests_cant": "there are no tests of the generators, and a run of them is about one mapping file", "anchors": ["encoding_tables/single_byte/generate_ascii_ext_tables.py:generate_ascii_ext_encoding", "encoding_tables/whatwg/generate_shiftjis.py", "encoding_tables/whatwg/generate_big5.py"]}
{"id": "C73", "title": "Running the generators again changes nothing in the repository", "statement": "Each of the three generator programs, executed from its source text in its folder with the mapping files of the repository, ends without an exception; afterwards each file that it writes has exactly the content that is in the repository, whatever was in it before, and every other file is untouched.", "quantifier": "all states of the other files, including the outputs", "why_tests_cant": "nothing in the repository checks that the generated files belong to the generators and mapping files next to them; a run shows it for one state of the files only", "anchors": ["encoding_tables/single_byte/generate_ascii_ext_tables.py", "encoding_tables/whatwg/generate_shiftjis.py", "encoding_tables/whatwg/generate_big5.py", "src/generated", "tests/test_data/whatwg"]}
{"id": "C74", "title": "The tests in tests/ pass for every input that proptest can draw", "statement": "The three programs in tests/, executed from their source text together with that of the crate, have the 28 + 2 + 2 tests that they define, and each test passes: without an input for the tests with files; for every text and for every vector of bytes that the strategy describes for the property tests.", "quantifier": "all texts, all vectors of bytes of the strategies, all machines (words of 16 bits and more; of 32 bits and more for the tests with files)", "why_tests_cant": "proptest draws 512 samples per run; that no sample can fail is a statement about all of them", "anchors": ["tests/property_tests.rs", "tests/shiftjis.rs", "tests/big5.rs", "tests/test_data/whatwg"]}
{"id": "C75", "title": "The unit tests and the examples in the documentation pass on every machine", "statement": "The unit tests in src/*.rs, executed from their source text together with that of the crate, are the 186 that the files mark with #[test], and each passes; the two examples in the documentation of the crate, executed in the same way, pass.", "quantifier": "all targets with words of at least 16 bits, with and without overflow checks", "why_tests_cant": "a run of the tests is a run on one target with one set of compiler options", "anchors": ["src/utf8.rs: tests", "src/utf16_be.rs: tests", "src/utf16_le.rs: tests", "src/utf32_be.rs: tests", "src/utf32_le.rs: tests", "src/shiftjis_whatwg.rs: tests", "src/big5_whatwg.rs: tests", "src/single_byte.rs: tests", "src/lib.rs: documentation"]}
{"id": "C76", "title": "The source text meets the complete contract", "statement": "encode_from_str and decode_to_str of every encoding, executed from the source text on any target, return exactly the result that the contract (C45, C46) allows and leave the output buffer as it says; a text whose chars all have a code, encoded with enough room and decoded again, comes back (but for Shift JIS, C26). The statement mentions the source text, the rules of execution and the specification only.", "quantifier": "all encodings, targets with words of at least 16 bits, inputs and buffers that a slice can have, is_end flags", "why_tests_cant": "unbounded inputs and buffers, and all targets", "anchors": ["src/*.rs: encode_from_str, decode_to_str", "src/generated"]}
{"id": "C77", "title": "From a mapping file to a module that converts as the file says", "statement": "Given any mapping file of an extension of ASCII with one byte per code point, the source text of the table generator, executed, writes a Rust file; this Rust file, executed as a module of the crate, decodes every input and encodes every text as the mapping file says, and bytes and text that correspond line by line are converted into each other.", "quantifier": "all mapping files of that kind, paths, inputs, buffers, targets with words of at least 16 bits", "why_tests_cant": "the mapping files that a maintainer can add, and the inputs for the resulting module, are unbounded", "anchors": ["encoding_tables/single_byte/generate_ascii_ext_tables.py", "src/single_byte.rs", "src/generated"]}
{"id": "C78", "title": "Searching in encoded text", "statement": "In UTF-8, UTF-16, UTF-32 and the single-byte encodings, the encoded needle occurs in an encoded text after a whole number of code units exactly where the needle occurs in the text, and what is before the occurrence is the encoding of the text before it. In Shift JIS and Big5, and in UTF-16 at an odd offset, the bytes of the needle may occur where the text does not have it.", "quantifier": "all encodings but the two named, all texts, all nonempty needles, all positions", "why_tests_cant": "all pairs of texts and needles", "anchors": ["src/lib.rs: encode_from_str", "src/utf8.rs", "src/utf16_be.rs", "src/utf16_le.rs", "src/utf32_be.rs", "src/utf32_le.rs", "src/single_byte.rs"]}
{"id": "C79", "title": "Lossy decoding and replacing encoding of a stream", "statement": "Decoding a stream chunk by chunk, with a replacement character for each error and going on after the reported range, ends and gives the same text for every way of cutting the stream into chunks and every buffer of at least four bytes: the text of decoding the whole stream at once. In UTF-8 the number of replacement characters depends on the chunks, by at most one more for each border between two chunks; everything else in the text does not. Encoding a text chunk by chunk, with a replacement for each char that has no code, likewise gives the same bytes for every cut, in every encoding.", "quantifier": "all encodings (the first claim: all but UTF-8), all byte streams, all texts, all encodable replacements, all cuts into chunks, all buffers of at least four bytes", "why_tests_cant": "all streams and all schedules", "anchors": ["src/lib.rs: decode_to_str, DecodeError::error_range, usage loop in the crate documentation"]}
{"id": "C80", "title": "Bounded look-ahead", "statement": "What a decoding call does with a buffer of n bytes is determined by the first 4n+4 bytes of its input: any two inputs that have these in common give the same result and the same buffer, whatever follows and whether or not the end is announced. In UTF-8 the end of a reported error range may differ, and nothing else. What an encoding call does is determined by the first n+2 chars of its text. So a call never needs, nor depends on, more data than that.", "quantifier": "all encodings (the first claim: all but UTF-8), all inputs and continuations, all buffers, both values of is_end", "why_tests_cant": "all pairs of continuations of all inputs", "anchors": ["src/lib.rs: encode_from_str, decode_to_str"]}
{"id": "C81", "title": "Encoding with the problematic chars left out", "statement": "The documented loop that skips each reported char and goes on ends for every text, every cut into chunks and every buffer of at least four bytes. It yields the encoding of the text without the chars that have no code (in Big5, chars that have a code together with the char before them are kept with it). Decoding that gives the text without those chars, except in Shift JIS and Big5.", "quantifier": "all encodings but those named, all texts, all cuts into chunks, all buffers of at least four bytes", "why_tests_cant": "all texts and all schedules", "anchors": ["src/lib.rs: encode_from_str, EncodeError::error_range, documentation of error handling"]}
{"id": "C82", "title": "Exactly which bytes come back after decoding and encoding", "statement": "Bytes that an encoding decodes completely are always encoded again, to as many bytes. They come back unchanged exactly if no code in them is a second code, that is, a code of one char for which the encoder writes another code. Shift JIS has exactly 398 second codes, Big5 exactly 100, the other encodings none.", "quantifier": "all encodings, all bytes accepted by the decoder, all buffers", "why_tests_cant": "all byte strings; the silent loss is only bounded if every code is examined", "anchors": ["src/lib.rs: documentation of the Shift JIS and Big5 encodings (silent lossy conversion)", "src/shiftjis_whatwg.rs: decode_to_str, encode_from_str", "src/big5_whatwg.rs: decode_to_str, encode_from_str"]}
{"id": "C83", "title": "Starting in the middle of a text", "statement": "In every encoding but Shift JIS and Big5: when complete encoded text is cut after a whole number of code units, decoding from the cut either gives the text from there on, or (in UTF-8 and UTF-16 only) reports InvalidData for the first one to three bytes and nothing else, and decoding after the reported bytes gives the text after the one char that was cut. In Shift JIS and Big5 there are texts of any length that are read as other text to the end, without an error, when the decoder starts one byte late.", "quantifier": "all encodings but the two named, all texts, all places to cut, all buffers, both end flags; for the two named, all lengths", "why_tests_cant": "all texts and all cuts", "anchors": ["src/lib.rs: decode_to_str, DecodeError::error_range", "src/utf8.rs: decode_to_str", "src/utf16_be.rs: decode_to_str", "src/utf16_le.rs: decode_to_str"]}
{"id": "C84", "title": "Damage stays local", "statement": "In every encoding but Shift JIS and Big5: when arbitrary bytes (in UTF-16 and UTF-32 a whole number of units) stand between the encodings of two texts, decoding with a replacement character for each error gives the first text, then at most as many chars as there are bytes between, then the second text. The one exception is that in UTF-8 a second text of one or two bytes at the end of the data may be lost. In Shift JIS and Big5 one byte before a text of any length can change all of it. In these two and in the single-byte encodings, what stands between two bytes that stand alone (below 0x40, such as line feeds; below 0x80 in the single-byte encodings) has no effect on the text outside.", "quantifier": "all encodings but the two named, all texts, all bytes between them, all buffers of at least four bytes; for the two named, all lengths", "why_tests_cant": "all texts and all damage", "anchors": ["src/lib.rs: decode_to_str, DecodeError::error_range, documentation of error handling", "src/utf8.rs: decode_to_str", "src/utf16_be.rs: decode_to_str", "src/utf32_be.rs: decode_to_str", "src/shiftjis_whatwg.rs: decode_to_str", "src/big5_whatwg.rs: decode_to_str"]}
{"id": "C85", "title": "Truncated text", "statement": "When complete encoded text breaks off anywhere, what is left decodes to the text up to the code that is cut. The first one to three bytes of that code are left unconsumed if more input may come, and are otherwise reported as one InvalidData error from the beginning of the code to the end of the data. Those bytes with the missing rest decode to the rest of the text.", "quantifier": "all encodings, all texts, all places to cut, all buffers that hold the text", "why_tests_cant": "all texts and all cuts", "anchors": ["src/lib.rs: decode_to_str, DecodeError::error_range, is_end"]}
{"id": "C86", "title": "Random access in encodings of fixed width", "statement": "In UTF-32 and the single-byte encodings, completely converted text has as many code units as chars, and converting the units (chars) from number i up to number j gives the chars (units) with these numbers. In each of the other encodings there are chars with codes of different lengths.", "quantifier": "all encodings, all texts, all ranges, all buffers that hold the result", "why_tests_cant": "all texts and all ranges", "anchors": ["src/lib.rs: decode_to_str, encode_from_str", "src/utf32_be.rs", "src/utf32_le.rs", "src/single_byte.rs"]}
{"id": "C87", "title": "Converting to another encoding and back", "statement": "When bytes in one encoding are converted to another encoding by a loop through two small buffers, converting the result back gives the bytes one started from exactly if no code among them is a second code of its char and, if the encoding between is Shift JIS, none of the three chars that Shift JIS replaces is in the text. If the encoding between is not Shift JIS, converting back never fails and gives as many bytes as one started from.", "quantifier": "all pairs of encodings, all inputs that convert, all buffers of at least four bytes", "why_tests_cant": "all pairs of encodings and all inputs", "anchors": ["src/lib.rs: decode_to_str, encode_from_str", "src/shiftjis_whatwg.rs", "src/big5_whatwg.rs"]}
{"id": "C88", "title": "Cleaning data", "statement": "Decoding arbitrary bytes with U+FFFD for each error and encoding the text with a replacement for each char that has no code always ends, and gives bytes that decode completely: to the text of the first decoding, with the replacement in the place of U+FFFD in the encodings without U+FFFD. Doing the same to the result once more gives the same bytes. (In Shift JIS the replacement must not be one of the three chars that Shift JIS does not preserve.)", "quantifier": "all encodings, all bytes, all replacements that have a code, all buffers of at least four bytes", "why_tests_cant": "all bytes, and all replacements", "anchors": ["src/lib.rs: decode_to_str, encode_from_str, DecodeError, EncodeError"]}
{"id": "C89", "title": "The least buffers", "statement": "A call to decode that announces the end of the input gets on with every input (it consumes something or reports an error) exactly if the buffer has at least 4 bytes in UTF-8, UTF-16, UTF-32 and Big5, 1 in ASCII, 2 in ISO 8859-1, 2, 3, 4, 6 and 9, and 3 in the other encodings. A call to encode does so exactly if the buffer has at least 4 bytes in UTF-8, UTF-16 and UTF-32, 2 in Big5 and Shift JIS, and 1 in the other encodings.", "quantifier": "all encodings, all sizes of buffers, all inputs", "why_tests_cant": "all inputs and all buffer sizes", "anchors": ["src/lib.rs: decode_to_str, encode_from_str"]}
{"id": "C90", "title": "The work of a call", "statement": "The main loop of every decoder but that of UTF-8 goes round at most once more than the number of bytes the call consumes (before the error, if it reports one), and at most once more than the number of bytes it writes; the main loop of every encoder but that of UTF-8 at most once more than the number of bytes it writes. So converting an input with one buffer, call after call, takes a number of rounds that is linear in the size of the input, however small the buffer. The search for a char boundary after the loop takes at most four rounds, the search for the end of a UTF-8 error no more rounds than the error has bytes, and a lookup in a table at most 16. For UTF-8 decoding this fails: each call validates the whole rest of the input, so with a buffer of a fixed size the number of rounds grows with the square of the input.", "quantifier": "all encodings, inputs, buffers of every size, numbers of calls, machines and addresses", "why_tests_cant": "it is about the number of steps for all inputs and all sizes; a test sees only the results", "anchors": ["src/utf8.rs: decode_to_str, copy_len", "src/utf16_be.rs", "src/utf32_be.rs", "src/big5_whatwg.rs", "src/shiftjis_whatwg.rs", "src/single_byte.rs: ascii_ext_encode_from_str, ascii_ext_decode_to_str", "src/lib.rs: the loop of the documentation"]}
{"id": "C91", "title": "Comparing texts by their bytes", "statement": "Two texts that are encoded completely give the same bytes exactly if they are the same text (in Shift JIS: the same after ¥, ‾ and − are taken as \\, ~ and －). Two byte strings that decode completely to the same text have the same length, and are equal if neither contains a second code of a char.", "quantifier": "all encodings, all pairs of texts, all pairs of byte strings, all buffers", "why_tests_cant": "all pairs of texts and of byte strings", "anchors": ["src/lib.rs: decode_to_str, encode_from_str", "src/shiftjis_whatwg.rs: encode_from_str"]}
{"id": "C92", "title": "Editing bytes instead of text", "statement": "Let each byte below 0x80 (below 0x40 in Big5 and Shift JIS) be replaced by any ASCII bytes, or be removed. The edited bytes of a decodable input decode completely, to the text in which the same chars were replaced in the same way; and the edited text encodes to the edited bytes. So converting line ends, removing NULs or escaping characters gives the same result on the bytes as on the text. In Big5 and Shift JIS this fails for bytes from 0x40 on, such as letters.", "quantifier": "all encodings but UTF-16 and UTF-32 (in which no byte is replaced), all edits, inputs, texts and buffers", "why_tests_cant": "all inputs and all edits", "anchors": ["src/lib.rs: decode_to_str, encode_from_str"]}
{"id": "C93", "title": "Offsets", "statement": "However a stream is passed to a decoder (in any windows, with any buffers, in any number of calls), the offset reached in the stream and the offset reached in the text determine each other and grow together; between two such points, reached by any two ways, the bytes by themselves decode to the text by itself. The same for an encoder. So a program may keep a table of offsets, made with one schedule of calls, and use it with another.", "quantifier": "all encodings, streams, texts and pairs of sequences of calls with arbitrary windows and buffers", "why_tests_cant": "all pairs of schedules of calls over all inputs", "anchors": ["src/lib.rs: decode_to_str, encode_from_str (documentation, Streaming Encoding)"]}
{"id": "C94", "title": "Counting chars without decoding", "statement": "The number of chars that a decoder returns can be counted in the bytes that it consumed, and the number that an encoder took in the bytes that it wrote: in UTF-8 the bytes that are not 80 to BF, in UTF-16 the units that are not low surrogates, in UTF-32 the units, in the single-byte encodings the bytes, in Shift JIS and Big5 the codes from left to right (the four Big5 codes of two chars count twice). In the encodings that extend ASCII, line ends and the other bytes below the bound of C63 can be counted likewise.", "quantifier": "all encodings x all inputs x all buffers x both flags", "why_tests_cant": "all inputs; a single code that stands for another number of chars breaks it", "anchors": ["src/lib.rs: decode_to_str, encode_from_str", "src/big5_whatwg.rs: decode_to_str, encode_from_str", "src/shiftjis_whatwg.rs: decode_to_str, encode_from_str"]}
{"id": "C95", "title": "Repairing text that was read in the wrong encoding", "statement": "If the bytes of a text in one encoding are read without an error in another one, then encoding what was read in that other encoding gives the bytes again, unless a second code (C82; only Shift JIS and Big5 have some) occurs in them, and decoding these in the right encoding gives the text. With an encoding that has a char for every byte this is so for all data. Data that was read with replacement chars in place of errors never comes back.", "quantifier": "all pairs of encodings, texts, byte strings, buffers and flags", "why_tests_cant": "all texts in all pairs of encodings", "anchors": ["src/lib.rs: decode_to_str, encode_from_str", "src/single_byte.rs"]}
{"id": "C96", "title": "Comparing beginnings", "statement": "The bytes of a text begin with the bytes of another text exactly if the text begins with that text. For Shift JIS: up to the three chars that it does not keep. For Big5: unless the two chars where the beginning ends have a common code. Likewise, if data begins with other data and both decode, the texts do.", "quantifier": "all encodings and all pairs of texts and byte strings", "why_tests_cant": "all pairs of texts", "anchors": ["src/lib.rs: decode_to_str, encode_from_str", "src/big5_whatwg.rs: encode_from_str"]}
{"id": "C97", "title": "Reading data in another encoding than it was written in", "statement": "Another encoding reads all data that one encoding reads as the same text only if the two are the same, or the one is ASCII and the other one is not UTF-16 or UTF-32; and then it does. Likewise for all texts that one encoding writes, except that Shift JIS does not keep three chars (C25) in itself. For one text and two encodings with one byte for each char: it is read as the same text exactly if both published tables have its chars at the same bytes. So no encoding of the crate can stand in for another one, except for ASCII data.", "quantifier": "all pairs of encodings, all data and texts, buffers and flags", "why_tests_cant": "all data in all pairs of encodings", "anchors": ["src/lib.rs: decode_to_str, encode_from_str, Encoding", "src/single_byte.rs", "encoding_tables"]}
{"id": "C98", "title": "Conversions that are interrupted and started again", "statement": "A program converts a stream call by call, appends the output of each call to a file, and at times records its place in the input and the length of the file. It may be interrupted at any point, any number of times; the file keeps its recorded beginning, after which anything may stand. It cuts the file to the recorded length and goes on from the recorded place, with other pieces and buffers. Then at every point of every history the file is exactly the conversion of what has been consumed, the file that an uninterrupted program has there; at the end it is what one call for everything returns; an error is reported at the same place with the same file before it (and for encoding the same char); and from every point of a history one call can finish the conversion.", "quantifier": "all encodings, streams and texts, and all histories of calls (any pieces, buffers and flags), records and interruptions", "why_tests_cant": "all crash points and histories", "anchors": ["src/lib.rs: decode_to_str, encode_from_str", "src/lib.rs: documentation of chunked conversion"]}
{"id": "C99", "title": "Converting with a fixed amount of memory", "statement": "A program keeps at most a fixed number of bytes of the input: it fills its memory with what a read gives (at least one byte or char if there is room), calls, keeps what was not consumed, and so on. It decodes every file, whatever the reads give and with every buffer with which calls get on (C89), exactly if the memory holds the longest code of the encoding (4, 2 or 1 bytes). It encodes every text exactly if the memory holds 4 bytes, and 6 bytes for Big5, which keeps one of two letters until it has seen the next char. With enough memory it ends after at most two calls for each byte (or char) and one more, with the whole result or with everything before the first data (or char) that cannot be converted and its place in the whole input. With less memory there are inputs with which the program never ends.", "quantifier": "all encodings, sizes of the memory, files and texts, sizes of the reads, and buffers", "why_tests_cant": "all inputs and schedules of reads", "anchors": ["src/lib.rs: decode_to_str, encode_from_str", "src/lib.rs: documentation of chunked conversion", "src/big5_whatwg.rs"]}
{"id": "C100", "title": "Reading backwards", "statement": "The last k bytes of data that are decoded to their end determine the last char exactly if k is at least 1 in a single-byte encoding, 3 in UTF-32BE, and 4 in UTF-8, UTF-16 and UTF-32LE; in Shift JIS and Big5 no number of bytes is enough. A program that reads from the end, calling with the last byte, if that is refused with the last two, up to four, and then going on with the data before, gives for all data the text that one call for the whole gives, and gives up exactly if there is none, in every encoding but Shift JIS and Big5, and in these two it does not. It makes at most one call for each byte, and five more.", "quantifier": "all encodings, all data, all numbers of bytes, all buffers with which calls get on (C89)", "why_tests_cant": "all data and all pairs of data with a common end", "anchors": ["src/lib.rs: decode_to_str", "src/utf8.rs", "src/utf16_be.rs", "src/utf32_be.rs", "src/shiftjis_whatwg.rs", "src/big5_whatwg.rs"]}
{"id": "C101", "title": "Converting the parts of a text independently", "statement": "A program divides data at arbitrary places (a whole number of code units each), moves each place behind the error that a call from there reports at its beginning, and decodes the parts by themselves, in any order or at the same time. If one call decodes the data to their end, in an encoding other than Shift JIS and Big5, then each part is decoded to its end, the parts together are the data, and their texts together are the text; each place is moved by at most three bytes. In every encoding but UTF-16 and UTF-32, data divided after bytes that stand alone (such as line feeds) are decoded to their end exactly if all parts are, and to the texts of the parts. A text divided anywhere (in Big5 not between two chars with a common code) is encoded exactly if all parts are, and to the bytes of the parts.", "quantifier": "all encodings (the first claim: but the two named), all data and texts, all divisions into any number of parts, all buffers", "why_tests_cant": "all data, divisions and orders of the calls", "anchors": ["src/lib.rs: decode_to_str, encode_from_str", "src/utf8.rs", "src/utf16_be.rs"]}
{"id": "C102", "title": "Strict decoding is what the WHATWG standard prescribes", "statement": "In every encoding but UTF-32 (which the standard does not have), a program that decodes a file piece by piece and stops at the first error gives the text, and reports an error, exactly if the standard's decoder in error mode \"fatal\" does, however the file is cut into pieces. The same holds for one call with the whole data, with an output buffer that has room for more than the text in front of the error: the text in the buffer is the standard's, the call succeeds if the standard's decoder does, and otherwise returns an error that says how much text is in the buffer. In contrast to decoding with replacement chars (C42) this includes UTF-8. (For the single-byte encodings, the standard's algorithm with the mapping file in encoding_tables as its index; the standard's own indexes have some more entries, such as U+0081 for the byte 0x81 of windows-1252.)", "quantifier": "all encodings but UTF-32, all data, all divisions into pieces, all buffers of at least four bytes (for one call: larger than the text)", "why_tests_cant": "all data and all schedules", "anchors": ["src/lib.rs: decode_to_str, DecodeError", "src/utf8.rs", "src/shiftjis_whatwg.rs", "src/big5_whatwg.rs"]}
{"id": "C103", "title": "Encoding for the web", "statement": "A program that encodes a text with encode_from_str and writes a numeric character reference (&#8364;) in place of each char the error names ends on every text. In the encodings with ASCII, it writes the bytes that the standard's \"encode\" (error mode \"html\") prescribes exactly if the text has no char that crate and standard encode differently: in Shift JIS U+E000 to U+E757, in Big5 the chars with a pointer below 5024 (C41). (For the single-byte encodings, the standard's algorithm with the mapping file in encoding_tables as its index; the standard's own indexes have some more entries, such as U+0081 for the byte 0x81 of windows-1252.)", "quantifier": "all encodings with ASCII, all texts, all buffers of at least four bytes", "why_tests_cant": "all texts", "anchors": ["src/lib.rs: encode_from_str, EncodeError", "src/shiftjis_whatwg.rs", "src/big5_whatwg.rs", "src/single_byte.rs"]}
{"id": "C104", "title": "Files that begin with a byte order mark", "statement": "The crate leaves byte order marks in the text (C54). A program that looks at the first three bytes of a file, chooses UTF-8 or UTF-16 by the mark or else a fallback encoding, and decodes what follows the mark piece by piece, gives the text and the failure that the standard's \"decode\" prescribes (error mode \"fatal\"), however the file is cut, even inside the mark. With a replacement character for each error it gives the text of error mode \"replacement\", unless the file is in UTF-8 (there the numbers of replacement characters differ, C42). A text that was encoded with U+FEFF in front, in UTF-8 or UTF-16, is read back without it, whatever the fallback is. Data that the fallback encoding decodes to their end are read as that text exactly if they do not begin with the bytes of a mark. (For the single-byte encodings, the standard's algorithm with the mapping file in encoding_tables as its index; the standard's own indexes have some more entries, such as U+0081 for the byte 0x81 of windows-1252.)", "quantifier": "all encodings as fallback (the first two claims: but UTF-32; the second: and but UTF-8), all data and texts, all divisions into pieces, all buffers of at least four bytes", "why_tests_cant": "all data and all schedules", "anchors": ["src/lib.rs: decode_to_str, encode_from_str", "src/lib.rs: documentation of chunked conversion", "src/utf8.rs", "src/utf16_be.rs", "src/utf16_le.rs"]}
