import Verif.Text

/-! Generated by tools/gen_src.py: verbatim copies of files of /repo. -/

namespace Verif.Files.Src

/-- src/lib.rs:1-286 -/
def lib : List Text := lines! r##"#![no_std]
#![allow(clippy::cast_lossless)]

//! A library for encoding/decoding between `&str`'s and other text encodings.
//!
//! This crate is designed to be relatively low-level, but also simple.  Each
//! module in the crate represents a different text encoding, and contains
//! two functions:
//!
//! * `encode_from_str()`: converts a `&str` to the module's text encoding.
//! * `decode_to_str()`: converts text in the module's text encoding to a `&str`.
//!
//! These functions behave identically across all modules, and are therefore
//! undocumented in the individual modules.  Instead, see the documentation
//! here for how to use them.
//!
//!
//! # `encode_from_str()`
//!
//! Basic usage of a module's `encode_from_str()` function looks like this:
//!
//! ```
//! # use text_encoding::single_byte::ascii::encode_from_str;
//! let text = "Hi, I'm some string.";
//! let mut out_buffer = [0u8; 100];
//! let (encoded_text, _) = encode_from_str(text, &mut out_buffer).unwrap();
//! ```
//!
//! The resulting encoded text is in `encoded_text`, which is an immutable
//! slice from the `out_buffer` that we passed in.
//!
//! The basic idea is that you provide the encoding function with both the
//! input text _and_ a buffer to write the encoded text to.  It then returns a
//! slice to just the part of the buffer containing the encoded text.
//!
//! This example is simplified, however, and ignores some important things
//! that you will want to handle in real code.  For example, error handling.
//!
//! ## Error Handling
//!
//! Error handling is both flexible and relatively straightforward.  Because
//! the `str` type in Rust is guaranteed to always be valid utf8, the only
//! possible error is when the output encoding is unable to represent some
//! part of the input utf8 text.  For example, if you're encoding to latin-1
//! but the utf8 text contains an emoji.
//!
//! When that happens, the encoding function will still encode all of the data
//! up to the unrepresentable text, and will then return an error with the
//! following information:
//!
//! - The un-encodable `char` in the input text.
//! - The byte index range of that char in the input text.
//! - The number of bytes written to the output buffer.  These always start at
//!   the beginning of the buffer, and are guaranteed to all be valid for the
//!   output encoding, so you can simply take a `&[..output_bytes_written]`
//!   slice of the output buffer to get the valid encoded data so far.
//!
//! This provides all of the information you need to handle the error however
//! you like.  You could choose to just panic (which is basically what our
//! first example does with `unwrap()`).  Or you could skip the problematic
//! `char` and continue encoding.  Or you could substitute another `char` in
//! place of the problematic `char`.  Really, it's up to you.
//!
//! ## Streaming Encoding
//!
//! The last main aspect of the encoding API has to do with a streaming style
//! of text encoding.  In our basic example, we simply created a buffer we
//! knew was large enough to contain all of the encoded text data.  But what
//! if your input text is huge, and you don't want to allocate a huge output
//! buffer?  Or what if you are receiving the text one chunk at a time, and
//! want to handle the chunks eagerly?
//!
//! That is what the second return parameter is for, which we ignored with a
//! `_` in our basic example.
//!
//! If the output buffer is too small to hold the entirety of the encoded
//! text, the encode function will write all of the data that does fit,
//! and then return the number of consumed _input_ bytes corresponding to the
//! returned buffer slice.  Also note that the returned buffer slice will
//! always itself be completely valid encoded text--the encoding function will
//! never, for example, write just part of a character.  Moreover, the number
//! of consumed input bytes will always be at a valid utf8 codepoint boundary.
//!
//! This API allows straightforward handling of text encoding in a streaming
//! fashion.  You can keep re-using the same buffer, and iteratively encode
//! more of the text, write it to disk, then encode more, then write that to
//! disk, etc.  This works both in the case that you have a too-small
//! output buffer but are repeatingly passing all of the remaining input
//! text, _and_ in the case where your ouput buffer is not your bottleneck and
//! instead you are receiving the input text data in chunks.
//!
//! Note that in the latter case--receiving the input text in chunks--you need
//! to be a little careful.  The encoding function may not consume all of a
//! given chunk.  In such cases, you will need to _append_ the next chunk to
//! unprocessed text, and pass that as the next chunk.
//!
//! ## Stateful Encoders
//!
//! Not all text encoding can be handled in a stateless way.  There are some
//! text encodings that require some kind of state to encode/decode
//! correctly.  In such cases, the `encode_from_str()` function will have one
//! or two additional parameters.
//!
//! The simplest variation is an encoding that simply needs to know when the
//! passed input is the last chunk of text in a stream.  In such cases,
//! the signature will include an `is_end` boolean parameter.
//!
//! If the passed input text contains _all_ of the remaining text, you should
//! simply pass `true` for that parameter.  However, when you are encoding
//! text one input-chunk at a time, you should pass `false` for all chunks
//! except the final one, which should be passed `true` to correctly finalize
//! the encoding.
//!
//! The other kind of state, which only a small number of encoders need, is
//! _internal_ state.  Unlike `is_end`, which must be managed by you, internal
//! state is  handled entirely by the encoder itself.  In such cases, the
//! encoder's module will have a `State` type which you must instantiate and
//! repeatedly pass to the encoding function's `state` parameter on every
//! call.
//!
//! Note that you must not re-use state for different pieces of text.  For an
//! entirely new piece of text, you must start again with a new state.
//! However, all of the `State` types are both very small and are `Copy`
//! types, so this is very cheap.
//!
//! Having a separate `State` type may seem like a strange API choice, since
//! the same semantics could be achieved with a struct with encode/decode
//! methods.  But the intent here is to provide a flexible, low-level, C-esk
//! API which can then be built on top of by other crates to provide
//! friendlier APIs.
//!
//!
//! # `decode_to_str()`
//!
//! The APIs for decoding are nearly identical in usage and behavior to
//! the APIs for encoding explained above.  A simple example:
//!
//! ```
//! # use text_encoding::single_byte::ascii::decode_to_str;
//! let bytes = "Some bytes of text data.".as_bytes();
//! let mut out_buffer = [0u8; 100];
//! let (decoded_text, _) = decode_to_str(bytes, &mut out_buffer).unwrap();
//! ```
//!
//! The main difference is that instead of passing in a `str` as input you
//! pass in a byte slice, and instead of the function returning a byte slice
//! it returns a `str`.  This makes sense, since the encode/decode functions
//! are inverse operations of each other.  But they otherwise operate
//! identically, including how they deal with stateful and streaming
//! encoding/decoding.
//!
//! It is worth noting that all of the decoders handle chunks correctly
//! _even when those chunks are split at otherwise invalid byte locations_.
//! For example, splitting utf16 text data in the middle of a code point is
//! perfectly valid and handled correctly when feeding chunks to the decoder.
//!
//! This robustness is important because otherwise client code would need to
//! know what a valid "split" is for every encoding used, which would push a
//! lot of encoding-specific logic into client code.  And that would somewhat
//! diminish the purpose of having a library like this in the first place.
//!
//! In a nutshell: you can blissfully throw bytes at the decoders however is
//! most convenient.
//!
//! ## Error Handling
//!
//! Error handling for decoding has the same general mechanics as the error
//! handling for encoding, but with more potential causes of errors.
//!
//! Unlike encoding, where the input text data is guaranteed to be valid,
//! decoding takes an arbitrary byte slice, which has no guarantees of being
//! valid text in the given encoding.  Therefore, a common cause of errors
//! when decoding is encountering invalid text data.
//!
//! It is tempting to think that--if valid--all input text data can be
//! unambiguously represented in utf8.  However, despite Unicode's lofty
//! goals of being able to represent all of the world's text, that is not
//! always the case.  The specifics of this are complex (see the "round-trip
//! conversion" section below), but it basically means there are two broad
//! causes of decode errors:
//!
//! - Invalid text data.
//! - Valid text data, but which we don't know how best to convert to Unicode.
//!
//! The `DecodeError` type therefore contains a `cause` field with an enum
//! indicating which of the two issues was encountered.
//!
//!
//! # Round-trip Conversions
//!
//! Round trip conversions between `str` and the various text encodings
//! are unfortunately not guaranteed to be lossless, even when no errors are
//! returned.
//!
//! A trivial case where it is obvious that lossy conversion has to take place
//! is converting from utf8 to Ascii and back.  Ascii only has 128
//! representable characters, whereas utf8 has well over 100,000.  To always
//! successfully convert between the two, some kind of lossy conversion has to
//! take place.  In this particular case, of course, the encoding API returns
//! an error if there is an unrepresentable character, so that the client
//! code can handle it however it sees fit.  However, this is not a reasonable
//! strategy in all cases.
//!
//! A good example is the ISO/IEC 2022 encoding, which can represent both
//! Chinese characters and Japanese kanji characters as distinct from each
//! other.  Unicode, however, represents Chinese and Japanese characters using
//! the same code points, not making any distinction between the two.  Thus,
//! converting between ISO/IEC 2022 and Unicode is necessarily lossy.  But
//! unlike with Ascii, if we returned an error for every ambiguous case,
//! almost every single character would be an error in typical use-cases for
//! for the encoding.  That would mean that client code would essentially
//! always need to manually encode/decode on its own in every case, at which
//! point this library wouldn't really be doing anything, and the client code
//! might as well write their own encode/decode functions instead.  Therefore,
//! in the case of ISO/IEC 2022, automatically doing a lossy conversion is
//! the more reasonable approach.
//!
//! If an encoding in this crate does silent lossy conversions, it will always
//! be documented in its module.  Otherwise you can depend on the conversion
//! functions either being lossless or returning an error.

pub mod big5_whatwg;
pub mod shiftjis_whatwg;
pub mod single_byte;
pub mod utf16_be;
pub mod utf16_le;
pub mod utf32_be;
pub mod utf32_le;
pub mod utf8;

/// Result type for encoding text from a `&str` to a target encoding.
///
/// The Ok() variant provides the encoded text data and the number of
/// bytes of input consumed.
pub type EncodeResult<'a> = Result<(&'a [u8], usize), EncodeError>;

/// Result type for decoding text from a source encoding to a `&str`.
///
/// The Ok() variant provides the decoded text and the number of bytes
/// of input consumed.
pub type DecodeResult<'a> = Result<(&'a str, usize), DecodeError>;

/// An error when encoding from a `&str` to some other format.
///
/// Since `&str`'s are always valid text, the only possible error is
/// encountering a char that is not representable in the target encoding.
///
/// The problematic character, the byte index range of that character in the
/// input utf8, and the number of bytes already written to the output buffer
/// are provided.
///
/// It is guaranteed that all input leading up to the problem character has
/// already been encoded and written to the output buffer.
#[derive(Debug, Copy, Clone, PartialEq)]
pub struct EncodeError {
    pub character: char,
    pub error_range: (usize, usize),
    pub output_bytes_written: usize,
}

/// An error when decoding from some other format to a `&str`.
///
/// The only possible error when decoding is encountering data in the input
/// that is invalid for the text encoding we're attempting to decode from.
///
/// The byte index range of the invalid input data and the number of bytes
/// already encoded and written to the output buffer are provided.
///
/// It is guaranteed that all input leading up to the invalid data has
/// already been encoded and written to the output buffer.
#[derive(Debug, Copy, Clone, PartialEq)]
pub struct DecodeError {
    pub cause: DecodeErrorCause,
    pub error_range: (usize, usize),
    pub output_bytes_written: usize,
}

#[derive(Debug, Copy, Clone, PartialEq)]
pub enum DecodeErrorCause {
    /// Encountered invalid text data.
    InvalidData,

    /// Encountered valid text data for which a reasonable Unicode conversion
    /// is unknown.
    UnknownConversion,
}
"##

/-- src/utf8.rs:1-395 -/
def utf8 : List Text := lines! r##"//! UTF-8.
//!
//! These functions are essentially redundant, since they're supposedly
//! encoding/decoding between utf8 and... utf8.  However, `decode_to_str()`
//! is still useful for validating unknown input.  And they provide a uniform
//! API for all encodings.

use core;
use {DecodeError, DecodeErrorCause, DecodeResult, EncodeResult};

pub fn encode_from_str<'a>(input: &str, out_buffer: &'a mut [u8]) -> EncodeResult<'a> {
    let cl = copy_len(input.as_bytes(), out_buffer.len());
    out_buffer[..cl].copy_from_slice(input[..cl].as_bytes());
    Ok((&out_buffer[..cl], cl))
}

pub fn decode_to_str<'a>(input: &[u8], out_buffer: &'a mut [u8], is_end: bool) -> DecodeResult<'a> {
    // Find how much of the data is valid utf8.
    let valid_up_to = match core::str::from_utf8(input) {
        Ok(text) => text.len(),
        Err(e) => e.valid_up_to(),
    };

    // Copy over what we can.
    let bytes_copied = copy_len(&input[..valid_up_to], out_buffer.len());
    out_buffer[..bytes_copied].copy_from_slice(&input[..bytes_copied]);

    // Determine if there's an error.
    if bytes_copied < out_buffer.len() && bytes_copied == valid_up_to && valid_up_to < input.len() {
        let trailing_bytes = input.len() - valid_up_to;
        let byte = input[valid_up_to];
        // First we check if we're truncated.  If not, then it's an error.
        let is_truncated = ((byte & 0b1110_0000) == 0b1100_0000 && trailing_bytes < 2)
            || ((byte & 0b1111_0000) == 0b1110_0000 && trailing_bytes < 3)
            || ((byte & 0b1111_1000) == 0b1111_0000 && trailing_bytes < 4);
        if !is_truncated {
            // Find the byte range of the error by finding the next valid
            // starting byte (or reaching end of input).
            let mut i = valid_up_to + 1;
            while i < input.len()
                && ((input[i] & 0b1100_0000) == 0b1000_0000
                    || (input[i] & 0b1111_1000) == 0b1111_1000)
            {
                i += 1;
            }
            // Return the error.
            return Err(DecodeError {
                cause: DecodeErrorCause::InvalidData,
                error_range: (valid_up_to, i),
                output_bytes_written: bytes_copied,
            });
        } else if is_end {
            // If we're truncated _and_ at end-of-input, that's also an error.
            return Err(DecodeError {
                cause: DecodeErrorCause::InvalidData,
                error_range: (valid_up_to, input.len()),
                output_bytes_written: bytes_copied,
            });
        }
    }

    // No error, return success.
    Ok((
        unsafe { core::str::from_utf8_unchecked(&out_buffer[..bytes_copied]) },
        bytes_copied,
    ))
}

/// Calculates how many bytes should be copied from input to output given
/// their lengths and the content of input.  Specifically, it calculates
/// the maximum amount that can be copied without incompletely copying
/// any multi-byte codepoints.
///
/// Input is assumed to be valid and complete utf8 (i.e. could be turned
/// directly into a &str).
#[inline(always)]
fn copy_len(input: &[u8], output_len: usize) -> usize {
    if output_len >= input.len() {
        input.len()
    } else {
        let mut i = output_len;
        while i > 0 && (input[i] & 0b1100_0000) == 0b1000_0000 {
            i -= 1;
        }
        i
    }
}

#[cfg(test)]
mod tests {
    use super::*;

    #[test]
    fn encode_01() {
        let text = "こんにちは！";
        let mut buf = [0u8; 2];
        let (encoded, consumed_count) = encode_from_str(text, &mut buf).unwrap();
        assert_eq!(consumed_count, 0);
        assert_eq!(encoded, &[]);
    }

    #[test]
    fn encode_02() {
        let text = "こんにちは！";
        let mut buf = [0u8; 3];
        let (encoded, consumed_count) = encode_from_str(text, &mut buf).unwrap();
        assert_eq!(consumed_count, 3);
        assert_eq!(encoded, &[0xE3, 0x81, 0x93]);
    }

    #[test]
    fn encode_03() {
        let text = "こんにちは！";
        let mut buf = [0u8; 5];
        let (encoded, consumed_count) = encode_from_str(text, &mut buf).unwrap();
        assert_eq!(consumed_count, 3);
        assert_eq!(encoded, &[0xE3, 0x81, 0x93]);
    }

    #[test]
    fn decode_01() {
        let data = [
            0xE3, 0x81, 0x93, 0xE3, 0x82, 0x93, 0xE3, 0x81, 0xAB, 0xE3, 0x81, 0xA1, 0xE3, 0x81,
            0xAF, 0xEF, 0xBC, 0x81,
        ]; // "こんにちは！"
        let mut buf = [0u8; 2];
        let (decoded, consumed_count) = decode_to_str(&data, &mut buf, true).unwrap();
        assert_eq!(consumed_count, 0);
        assert_eq!(decoded, "");
    }

    #[test]
    fn decode_02() {
        let data = [
            0xE3, 0x81, 0x93, 0xE3, 0x82, 0x93, 0xE3, 0x81, 0xAB, 0xE3, 0x81, 0xA1, 0xE3, 0x81,
            0xAF, 0xEF, 0xBC, 0x81,
        ]; // "こんにちは！"
        let mut buf = [0u8; 3];
        let (decoded, consumed_count) = decode_to_str(&data, &mut buf, true).unwrap();
        assert_eq!(consumed_count, 3);
        assert_eq!(decoded, "こ");
    }

    #[test]
    fn decode_03() {
        let data = [
            0xE3, 0x81, 0x93, 0xE3, 0x82, 0x93, 0xE3, 0x81, 0xAB, 0xE3, 0x81, 0xA1, 0xE3, 0x81,
            0xAF, 0xEF, 0xBC, 0x81,
        ]; // "こんにちは！"
        let mut buf = [0u8; 5];
        let (decoded, consumed_count) = decode_to_str(&data, &mut buf, true).unwrap();
        assert_eq!(consumed_count, 3);
        assert_eq!(decoded, "こ");
    }

    #[test]
    fn decode_04() {
        let data = [
            0xE3, 0x81, 0x93, 0xE3, 0x82, 0x93, 0xE3, 0x81, 0xAB, 0xE3, 0x81, 0xA1, 0xE3, 0x81,
            0xAF, 0xEF, 0xBC,
        ]; // "こんにちは！" with last byte chopped off.
        let mut buf = [0u8; 64];
        let (decoded, consumed_count) = decode_to_str(&data, &mut buf, false).unwrap();
        assert_eq!(consumed_count, 15);
        assert_eq!(decoded, "こんにちは");
    }

    #[test]
    fn decode_05() {
        let data = [
            0xE3, 0x81, 0x93, 0xE3, 0x82, 0x93, 0xE3, 0x81, 0xAB, 0xE3, 0x81, 0xA1, 0xE3, 0x81,
            0xAF, 0xEF,
        ]; // "こんにちは！" with last 2 bytes chopped off.
        let mut buf = [0u8; 64];
        let (decoded, consumed_count) = decode_to_str(&data, &mut buf, false).unwrap();
        assert_eq!(consumed_count, 15);
        assert_eq!(decoded, "こんにちは");
    }

    #[test]
    fn decode_error_01() {
        let data = [
            0b10000000, 0x81, 0x93, 0xE3, 0x82, 0x93, 0xE3, 0x81, 0xAB, 0xE3, 0x81, 0xA1, 0xE3,
            0x81, 0xAF, 0xEF, 0xBC, 0x81,
        ]; // "こんにちは！" with an error on the first char (continuing code unit).
        let mut buf = [0u8; 2];
        let error = decode_to_str(&data, &mut buf, true);
        assert_eq!(
            error,
            Err(DecodeError {
                cause: DecodeErrorCause::InvalidData,
                error_range: (0, 3),
                output_bytes_written: 0,
            })
        );
    }

    #[test]
    fn decode_error_02() {
        let data = [
            0xE3, 0x81, 0xE3, 0x82, 0x93, 0xE3, 0x81, 0xAB, 0xE3, 0x81, 0xA1, 0xE3, 0x81, 0xAF,
            0xEF, 0xBC, 0x81,
        ]; // "こんにちは！" with an error on the first code point (too few continuing code units).
        let mut buf = [0u8; 2];
        let error = decode_to_str(&data, &mut buf, true);
        assert_eq!(
            error,
            Err(DecodeError {
                cause: DecodeErrorCause::InvalidData,
                error_range: (0, 2),
                output_bytes_written: 0,
            })
        );
    }

    #[test]
    fn decode_error_03() {
        let data = [
            0xE3, 0x81, 0x93, 0b10000000, 0x82, 0x93, 0xE3, 0x81, 0xAB, 0xE3, 0x81, 0xA1, 0xE3,
            0x81, 0xAF, 0xEF, 0xBC, 0x81,
        ]; // "こんにちは！" with an error on the second code point (continuing code unit).
        let mut buf = [0u8; 64];
        let error = decode_to_str(&data, &mut buf, true);
        assert_eq!(
            error,
            Err(DecodeError {
                cause: DecodeErrorCause::InvalidData,
                error_range: (3, 6),
                output_bytes_written: 3,
            })
        );
    }

    #[test]
    fn decode_error_04() {
        let data = [
            0xE3, 0x81, 0x93, 0b10000000, 0x82, 0x93, 0b10000000, 0x81, 0xAB, 0b10000000, 0x81,
            0xA1, 0xE3, 0x81, 0xAF, 0xEF, 0xBC, 0x81,
        ]; // "こんにちは！" with an error on the second code point (lots of continuing code units).
        let mut buf = [0u8; 64];
        let error = decode_to_str(&data, &mut buf, true);
        assert_eq!(
            error,
            Err(DecodeError {
                cause: DecodeErrorCause::InvalidData,
                error_range: (3, 12),
                output_bytes_written: 3,
            })
        );
    }

    #[test]
    fn decode_error_05() {
        let data = [
            0xE3, 0x81, 0x93, 0b11111000, 0x82, 0x93, 0x93, 0x93, 0xE3, 0x81, 0xAB, 0xE3, 0x81,
            0xA1, 0xE3, 0x81, 0xAF, 0xEF, 0xBC, 0x81,
        ]; // "こんにちは！" with an error on the second code point (invalid bit pattern).
        let mut buf = [0u8; 64];
        let error = decode_to_str(&data, &mut buf, true);
        assert_eq!(
            error,
            Err(DecodeError {
                cause: DecodeErrorCause::InvalidData,
                error_range: (3, 8),
                output_bytes_written: 3,
            })
        );
    }

    #[test]
    fn decode_error_06() {
        let data = [
            0xE3, 0x81, 0x93, 0xED, 0xA0, 0x80, 0xE3, 0x81, 0xAB, 0xE3, 0x81, 0xA1, 0xE3, 0x81,
            0xAF, 0xEF, 0xBC, 0x81,
        ]; // "こんにちは！" with an error on the second code point (beginning of surrogate range).
        let mut buf = [0u8; 64];
        let error = decode_to_str(&data, &mut buf, true);
        assert_eq!(
            error,
            Err(DecodeError {
                cause: DecodeErrorCause::InvalidData,
                error_range: (3, 6),
                output_bytes_written: 3,
            })
        );
    }

    #[test]
    fn decode_error_07() {
        let data = [
            0xE3, 0x81, 0x93, 0xED, 0xBF, 0xBF, 0xE3, 0x81, 0xAB, 0xE3, 0x81, 0xA1, 0xE3, 0x81,
            0xAF, 0xEF, 0xBC, 0x81,
        ]; // "こんにちは！" with an error on the second code point (end of surrogate range).
        let mut buf = [0u8; 64];
        let error = decode_to_str(&data, &mut buf, true);
        assert_eq!(
            error,
            Err(DecodeError {
                cause: DecodeErrorCause::InvalidData,
                error_range: (3, 6),
                output_bytes_written: 3,
            })
        );
    }

    #[test]
    fn decode_error_08() {
        let data = [
            0xE3, 0x81, 0x93, 0xF4, 0x90, 0x80, 0x80, 0xE3, 0x81, 0xAB, 0xE3, 0x81, 0xA1, 0xE3,
            0x81, 0xAF, 0xEF, 0xBC, 0x81,
        ]; // "こんにちは！" with an error on the second code point (out of unicode range).
        let mut buf = [0u8; 64];
        let error = decode_to_str(&data, &mut buf, true);
        assert_eq!(
            error,
            Err(DecodeError {
                cause: DecodeErrorCause::InvalidData,
                error_range: (3, 7),
                output_bytes_written: 3,
            })
        );
    }

    #[test]
    fn decode_error_09() {
        let data = [
            0xE3, 0x81, 0x93, 0xC0, 0x93, 0xE3, 0x81, 0xAB, 0xE3, 0x81, 0xA1, 0xE3, 0x81, 0xAF,
            0xEF, 0xBC, 0x81,
        ]; // "こんにちは！" with an error on the second code point (byte == 0xC0).
        let mut buf = [0u8; 64];
        let error = decode_to_str(&data, &mut buf, true);
        assert_eq!(
            error,
            Err(DecodeError {
                cause: DecodeErrorCause::InvalidData,
                error_range: (3, 5),
                output_bytes_written: 3,
            })
        );
    }

    #[test]
    fn decode_error_10() {
        let data = [
            0xE3, 0x81, 0x93, 0xC1, 0x93, 0xE3, 0x81, 0xAB, 0xE3, 0x81, 0xA1, 0xE3, 0x81, 0xAF,
            0xEF, 0xBC, 0x81,
        ]; // "こんにちは！" with an error on the second code point (byte == 0xC1).
        let mut buf = [0u8; 64];
        let error = decode_to_str(&data, &mut buf, true);
        assert_eq!(
            error,
            Err(DecodeError {
                cause: DecodeErrorCause::InvalidData,
                error_range: (3, 5),
                output_bytes_written: 3,
            })
        );
    }

    #[test]
    fn decode_error_11() {
        let data = [
            0xE3, 0x81, 0x93, 0xE3, 0x82, 0x93, 0xE3, 0x81, 0xAB, 0xE3, 0x81, 0xA1, 0xE3, 0x81,
            0xAF, 0xEF, 0xBC,
        ]; // "こんにちは！" with last byte chopped off.
        let mut buf = [0u8; 64];
        let error = decode_to_str(&data, &mut buf, true);
        assert_eq!(
            error,
            Err(DecodeError {
                cause: DecodeErrorCause::InvalidData,
                error_range: (15, 17),
                output_bytes_written: 15,
            })
        );
    }

    #[test]
    fn decode_error_12() {
        let data = [
            0xE3, 0x81, 0x93, 0xE3, 0x82, 0x93, 0xE3, 0x81, 0xAB, 0xE3, 0x81, 0xA1, 0xE3, 0x81,
            0xAF, 0xEF,
        ]; // "こんにちは！" with last 2 bytes chopped off.
        let mut buf = [0u8; 64];
        let error = decode_to_str(&data, &mut buf, true);
        assert_eq!(
            error,
            Err(DecodeError {
                cause: DecodeErrorCause::InvalidData,
                error_range: (15, 16),
                output_bytes_written: 15,
            })
        );
    }
}
"##

/-- src/utf16_be.rs:1-429 -/
def utf16_be : List Text := lines! r##"//! Big-endian UTF-16.

use core;
use {DecodeError, DecodeErrorCause, DecodeResult, EncodeResult};

pub fn encode_from_str<'a>(input: &str, out_buffer: &'a mut [u8]) -> EncodeResult<'a> {
    // Do the encode.
    let mut input_i = 0;
    let mut output_i = 0;
    for (offset, c) in input.char_indices() {
        let mut code = c as u32;
        if code <= 0xFFFF {
            // One code unit
            if (output_i + 1) < out_buffer.len() {
                let val = (code as u16).to_be_bytes();
                out_buffer[output_i] = val[0];
                out_buffer[output_i + 1] = val[1];
                output_i += 2;
                input_i = offset + 1;
            } else {
                break;
            }
        } else if (output_i + 3) < out_buffer.len() {
            // Two code units
            code -= 0x10000;
            let first = (0xD800 | ((code >> 10) as u16)).to_be_bytes();
            let second = (0xDC00 | ((code as u16) & 0x3FF)).to_be_bytes();
            out_buffer[output_i] = first[0];
            out_buffer[output_i + 1] = first[1];
            out_buffer[output_i + 2] = second[0];
            out_buffer[output_i + 3] = second[1];
            output_i += 4;
            input_i = offset + 1;
        } else {
            break;
        }
    }

    // Calculate how much of the input was consumed.
    if input_i > input.len() {
        input_i = input.len();
    } else {
        while !input.is_char_boundary(input_i) {
            input_i += 1;
        }
    }

    Ok((&out_buffer[..output_i], input_i))
}

pub fn decode_to_str<'a>(input: &[u8], out_buffer: &'a mut [u8], is_end: bool) -> DecodeResult<'a> {
    let mut input_i = 0;
    let mut output_i = 0;

    // Loop through the input, getting 2 bytes at a time.
    let mut itr = input.chunks(2);
    while let Some(bytes) = itr.next() {
        if bytes.len() < 2 {
            if !is_end {
                break;
            } else {
                // Error: incomplete data at end-of-input.
                return Err(DecodeError {
                    cause: DecodeErrorCause::InvalidData,
                    error_range: (input_i, input.len()),
                    output_bytes_written: output_i,
                });
            }
        }

        // Decode to scalar value.
        let code = {
            let code_1 = u16::from_be_bytes([bytes[0], bytes[1]]);
            if code_1 < 0xD800 || code_1 > 0xDFFF {
                // Single code unit.
                unsafe { core::char::from_u32_unchecked(code_1 as u32) }
            } else if (code_1 & 0xFC00) == 0xDC00 {
                // Error: orphaned second half of a surrogate pair.
                return Err(DecodeError {
                    cause: DecodeErrorCause::InvalidData,
                    error_range: (input_i, input_i + 2),
                    output_bytes_written: output_i,
                });
            } else {
                // Two code units.

                // Get the second code unit, if possible.
                if (input_i + 3) >= input.len() {
                    if !is_end {
                        break;
                    } else {
                        // Error: incomplete data at end-of-input.
                        return Err(DecodeError {
                            cause: DecodeErrorCause::InvalidData,
                            error_range: (input_i, input.len()),
                            output_bytes_written: output_i,
                        });
                    }
                }
                let bytes_2 = itr.next().unwrap();
                let code_2 = u16::from_be_bytes([bytes_2[0], bytes_2[1]]);
                if (code_2 & 0xFC00) != 0xDC00 {
                    // Error: second half is not valid surrogate.
                    return Err(DecodeError {
                        cause: DecodeErrorCause::InvalidData,
                        error_range: (input_i, input_i + 2),
                        output_bytes_written: output_i,
                    });
                }

                unsafe {
                    core::char::from_u32_unchecked(
                        (((code_1 as u32 - 0xD800) << 10) | (code_2 as u32 - 0xDC00)) + 0x10000,
                    )
                }
            }
        };

        // Encode to utf8.
        let mut buf = [0u8; 4];
        let s = code.encode_utf8(&mut buf);
        if (output_i + s.len()) > out_buffer.len() {
            break;
        }
        out_buffer[output_i..(output_i + s.len())].copy_from_slice(s.as_bytes());

        // Update our counters.
        input_i += code.len_utf16() * 2;
        output_i += s.len();
    }

    Ok((
        unsafe { core::str::from_utf8_unchecked(&out_buffer[..output_i]) },
        input_i,
    ))
}

#[cfg(test)]
mod tests {
    use super::*;

    #[test]
    fn encode_01() {
        let text = "こんにちは！";
        let mut buf = [0u8; 1];
        let (encoded, consumed_count) = encode_from_str(text, &mut buf).unwrap();
        assert_eq!(consumed_count, 0);
        assert_eq!(encoded, &[]);
    }

    #[test]
    fn encode_02() {
        let text = "こんにちは！";
        let mut buf = [0u8; 2];
        let (encoded, consumed_count) = encode_from_str(text, &mut buf).unwrap();
        assert_eq!(consumed_count, 3);
        assert_eq!(encoded, &[0x30, 0x53]);
    }

    #[test]
    fn encode_03() {
        let text = "こんにちは！";
        let mut buf = [0u8; 3];
        let (encoded, consumed_count) = encode_from_str(text, &mut buf).unwrap();
        assert_eq!(consumed_count, 3);
        assert_eq!(encoded, &[0x30, 0x53]);
    }

    #[test]
    fn encode_04() {
        let text = "😺😼";
        let mut buf = [0u8; 3];
        let (encoded, consumed_count) = encode_from_str(text, &mut buf).unwrap();
        assert_eq!(consumed_count, 0);
        assert_eq!(encoded, &[]);
    }

    #[test]
    fn encode_05() {
        let text = "😺😼";
        let mut buf = [0u8; 4];
        let (encoded, consumed_count) = encode_from_str(text, &mut buf).unwrap();
        assert_eq!(consumed_count, 4);
        assert_eq!(encoded, &[0xD8, 0x3D, 0xDE, 0x3A]);
    }

    #[test]
    fn encode_06() {
        let text = "😺😼";
        let mut buf = [0u8; 7];
        let (encoded, consumed_count) = encode_from_str(text, &mut buf).unwrap();
        assert_eq!(consumed_count, 4);
        assert_eq!(encoded, &[0xD8, 0x3D, 0xDE, 0x3A]);
    }

    #[test]
    fn decode_01() {
        let data = [
            0x30, 0x53, 0x30, 0x93, 0x30, 0x6B, 0x30, 0x61, 0x30, 0x6F, 0xFF, 0x01,
        ]; // "こんにちは！"
        let mut buf = [0u8; 2];
        let (decoded, consumed_count) = decode_to_str(&data, &mut buf, true).unwrap();
        assert_eq!(consumed_count, 0);
        assert_eq!(decoded, "");
    }

    #[test]
    fn decode_02() {
        let data = [
            0x30, 0x53, 0x30, 0x93, 0x30, 0x6B, 0x30, 0x61, 0x30, 0x6F, 0xFF, 0x01,
        ]; // "こんにちは！"
        let mut buf = [0u8; 3];
        let (decoded, consumed_count) = decode_to_str(&data, &mut buf, true).unwrap();
        assert_eq!(consumed_count, 2);
        assert_eq!(decoded, "こ");
    }

    #[test]
    fn decode_03() {
        let data = [
            0x30, 0x53, 0x30, 0x93, 0x30, 0x6B, 0x30, 0x61, 0x30, 0x6F, 0xFF, 0x01,
        ]; // "こんにちは！"
        let mut buf = [0u8; 5];
        let (decoded, consumed_count) = decode_to_str(&data, &mut buf, true).unwrap();
        assert_eq!(consumed_count, 2);
        assert_eq!(decoded, "こ");
    }

    #[test]
    fn decode_04() {
        let data = [0xD8, 0x3D, 0xDE, 0x3A, 0xD8, 0x3D, 0xDE, 0x3C]; // "😺😼"
        let mut buf = [0u8; 3];
        let (decoded, consumed_count) = decode_to_str(&data, &mut buf, true).unwrap();
        assert_eq!(consumed_count, 0);
        assert_eq!(decoded, "");
    }

    #[test]
    fn decode_05() {
        let data = [0xD8, 0x3D, 0xDE, 0x3A, 0xD8, 0x3D, 0xDE, 0x3C]; // "😺😼"
        let mut buf = [0u8; 4];
        let (decoded, consumed_count) = decode_to_str(&data, &mut buf, true).unwrap();
        assert_eq!(consumed_count, 4);
        assert_eq!(decoded, "😺");
    }

    #[test]
    fn decode_06() {
        let data = [0xD8, 0x3D, 0xDE, 0x3A, 0xD8, 0x3D, 0xDE, 0x3C]; // "😺😼"
        let mut buf = [0u8; 7];
        let (decoded, consumed_count) = decode_to_str(&data, &mut buf, true).unwrap();
        assert_eq!(consumed_count, 4);
        assert_eq!(decoded, "😺");
    }

    #[test]
    fn decode_07() {
        let data = [0xD8, 0x3D, 0xDE, 0x3A, 0xD8, 0x3D]; // "😺😼" with last codepoint chopped off.
        let mut buf = [0u8; 64];
        let (decoded, consumed_count) = decode_to_str(&data, &mut buf, false).unwrap();
        assert_eq!(consumed_count, 4);
        assert_eq!(decoded, "😺");
    }

    #[test]
    fn decode_08() {
        let data = [0xD8, 0x3D, 0xDE, 0x3A, 0xD8, 0x3D, 0xDE]; // "😺😼" with last byte chopped off.
        let mut buf = [0u8; 64];
        let (decoded, consumed_count) = decode_to_str(&data, &mut buf, false).unwrap();
        assert_eq!(consumed_count, 4);
        assert_eq!(decoded, "😺");
    }

    #[test]
    fn decode_09() {
        let data = [0xD8, 0x3D, 0xDE, 0x3A, 0xD8]; // "😺😼" with last 3 bytes chopped off.
        let mut buf = [0u8; 64];
        let (decoded, consumed_count) = decode_to_str(&data, &mut buf, false).unwrap();
        assert_eq!(consumed_count, 4);
        assert_eq!(decoded, "😺");
    }

    #[test]
    fn decode_error_01() {
        let data = [
            0xDE, 0x3A, 0x30, 0x93, 0x30, 0x6B, 0x30, 0x61, 0x30, 0x6F, 0xFF, 0x01,
        ]; // "こんにちは！" with an error on the first char (end surrogate)
        let mut buf = [0u8; 2];
        let error = decode_to_str(&data, &mut buf, true);
        assert_eq!(
            error,
            Err(DecodeError {
                cause: DecodeErrorCause::InvalidData,
                error_range: (0, 2),
                output_bytes_written: 0,
            })
        );
    }

    #[test]
    fn decode_error_02() {
        let data = [
            0x30, 0x53, 0xDE, 0x3A, 0x30, 0x6B, 0x30, 0x61, 0x30, 0x6F, 0xFF, 0x01,
        ]; // "こんにちは！" with an error on the second char (end surrogate)
        let mut buf = [0u8; 3];
        let error = decode_to_str(&data, &mut buf, true);
        assert_eq!(
            error,
            Err(DecodeError {
                cause: DecodeErrorCause::InvalidData,
                error_range: (2, 4),
                output_bytes_written: 3,
            })
        );
    }

    #[test]
    fn decode_error_03() {
        let data = [
            0x30, 0x53, 0x30, 0x93, 0x30, 0x6B, 0xDE, 0x3A, 0x30, 0x6F, 0xFF, 0x01,
        ]; // "こんにちは！" with an error on the fourth char (end surrogate)
        let mut buf = [0u8; 64];
        let error = decode_to_str(&data, &mut buf, true);
        assert_eq!(
            error,
            Err(DecodeError {
                cause: DecodeErrorCause::InvalidData,
                error_range: (6, 8),
                output_bytes_written: 9,
            })
        );
    }

    #[test]
    fn decode_error_04() {
        let data = [
            0xD8, 0x3D, 0x30, 0x93, 0x30, 0x6B, 0x30, 0x61, 0x30, 0x6F, 0xFF, 0x01,
        ]; // "こんにちは！" with an error on the first char (start surrogate)
        let mut buf = [0u8; 2];
        let error = decode_to_str(&data, &mut buf, true);
        assert_eq!(
            error,
            Err(DecodeError {
                cause: DecodeErrorCause::InvalidData,
                error_range: (0, 2),
                output_bytes_written: 0,
            })
        );
    }

    #[test]
    fn decode_error_05() {
        let data = [
            0x30, 0x53, 0xD8, 0x3D, 0x30, 0x6B, 0x30, 0x61, 0x30, 0x6F, 0xFF, 0x01,
        ]; // "こんにちは！" with an error on the second char (start surrogate)
        let mut buf = [0u8; 3];
        let error = decode_to_str(&data, &mut buf, true);
        assert_eq!(
            error,
            Err(DecodeError {
                cause: DecodeErrorCause::InvalidData,
                error_range: (2, 4),
                output_bytes_written: 3,
            })
        );
    }

    #[test]
    fn decode_error_06() {
        let data = [
            0x30, 0x53, 0x30, 0x93, 0x30, 0x6B, 0xD8, 0x3D, 0x30, 0x6F, 0xFF, 0x01,
        ]; // "こんにちは！" with an error on the fourth char (start surrogate)
        let mut buf = [0u8; 64];
        let error = decode_to_str(&data, &mut buf, true);
        assert_eq!(
            error,
            Err(DecodeError {
                cause: DecodeErrorCause::InvalidData,
                error_range: (6, 8),
                output_bytes_written: 9,
            })
        );
    }

    #[test]
    fn decode_error_07() {
        let data = [0xD8, 0x3D, 0xDE, 0x3A, 0xD8, 0x3D]; // "😺😼" with last codepoint chopped off.
        let mut buf = [0u8; 64];
        let error = decode_to_str(&data, &mut buf, true);
        assert_eq!(
            error,
            Err(DecodeError {
                cause: DecodeErrorCause::InvalidData,
                error_range: (4, 6),
                output_bytes_written: 4,
            })
        );
    }

    #[test]
    fn decode_error_08() {
        let data = [0xD8, 0x3D, 0xDE, 0x3A, 0xD8, 0x3D, 0xDE]; // "😺😼" with last byte chopped off.
        let mut buf = [0u8; 64];
        let error = decode_to_str(&data, &mut buf, true);
        assert_eq!(
            error,
            Err(DecodeError {
                cause: DecodeErrorCause::InvalidData,
                error_range: (4, 7),
                output_bytes_written: 4,
            })
        );
    }

    #[test]
    fn decode_error_09() {
        let data = [0xD8, 0x3D, 0xDE, 0x3A, 0xD8]; // "😺😼" with last 3 bytes chopped off.
        let mut buf = [0u8; 64];
        let error = decode_to_str(&data, &mut buf, true);
        assert_eq!(
            error,
            Err(DecodeError {
                cause: DecodeErrorCause::InvalidData,
                error_range: (4, 5),
                output_bytes_written: 4,
            })
        );
    }
}
"##

/-- src/utf16_le.rs:1-429 -/
def utf16_le : List Text := lines! r##"//! Little-endian UTF-16.

use core;
use {DecodeError, DecodeErrorCause, DecodeResult, EncodeResult};

pub fn encode_from_str<'a>(input: &str, out_buffer: &'a mut [u8]) -> EncodeResult<'a> {
    // Do the encode.
    let mut input_i = 0;
    let mut output_i = 0;
    for (offset, c) in input.char_indices() {
        let mut code = c as u32;
        if code <= 0xFFFF {
            // One code unit
            if (output_i + 1) < out_buffer.len() {
                let val = (code as u16).to_le_bytes();
                out_buffer[output_i] = val[0];
                out_buffer[output_i + 1] = val[1];
                output_i += 2;
                input_i = offset + 1;
            } else {
                break;
            }
        } else if (output_i + 3) < out_buffer.len() {
            // Two code units
            code -= 0x10000;
            let first = (0xD800 | ((code >> 10) as u16)).to_le_bytes();
            let second = (0xDC00 | ((code as u16) & 0x3FF)).to_le_bytes();
            out_buffer[output_i] = first[0];
            out_buffer[output_i + 1] = first[1];
            out_buffer[output_i + 2] = second[0];
            out_buffer[output_i + 3] = second[1];
            output_i += 4;
            input_i = offset + 1;
        } else {
            break;
        }
    }

    // Calculate how much of the input was consumed.
    if input_i > input.len() {
        input_i = input.len();
    } else {
        while !input.is_char_boundary(input_i) {
            input_i += 1;
        }
    }

    Ok((&out_buffer[..output_i], input_i))
}

pub fn decode_to_str<'a>(input: &[u8], out_buffer: &'a mut [u8], is_end: bool) -> DecodeResult<'a> {
    let mut input_i = 0;
    let mut output_i = 0;

    // Loop through the input, getting 2 bytes at a time.
    let mut itr = input.chunks(2);
    while let Some(bytes) = itr.next() {
        if bytes.len() < 2 {
            if !is_end {
                break;
            } else {
                // Error: incomplete data at end-of-input.
                return Err(DecodeError {
                    cause: DecodeErrorCause::InvalidData,
                    error_range: (input_i, input.len()),
                    output_bytes_written: output_i,
                });
            }
        }

        // Decode to scalar value.
        let code = {
            let code_1 = u16::from_le_bytes([bytes[0], bytes[1]]);
            if code_1 < 0xD800 || code_1 > 0xDFFF {
                // Single code unit.
                unsafe { core::char::from_u32_unchecked(code_1 as u32) }
            } else if (code_1 & 0xFC00) == 0xDC00 {
                // Error: orphaned second half of a surrogate pair.
                return Err(DecodeError {
                    cause: DecodeErrorCause::InvalidData,
                    error_range: (input_i, input_i + 2),
                    output_bytes_written: output_i,
                });
            } else {
                // Two code units.

                // Get the second code unit, if possible.
                if (input_i + 3) >= input.len() {
                    if !is_end {
                        break;
                    } else {
                        // Error: incomplete data at end-of-input.
                        return Err(DecodeError {
                            cause: DecodeErrorCause::InvalidData,
                            error_range: (input_i, input.len()),
                            output_bytes_written: output_i,
                        });
                    }
                }
                let bytes_2 = itr.next().unwrap();
                let code_2 = u16::from_le_bytes([bytes_2[0], bytes_2[1]]);
                if (code_2 & 0xFC00) != 0xDC00 {
                    // Error: second half is not valid surrogate.
                    return Err(DecodeError {
                        cause: DecodeErrorCause::InvalidData,
                        error_range: (input_i, input_i + 2),
                        output_bytes_written: output_i,
                    });
                }

                unsafe {
                    core::char::from_u32_unchecked(
                        (((code_1 as u32 - 0xD800) << 10) | (code_2 as u32 - 0xDC00)) + 0x10000,
                    )
                }
            }
        };

        // Encode to utf8.
        let mut buf = [0u8; 4];
        let s = code.encode_utf8(&mut buf);
        if (output_i + s.len()) > out_buffer.len() {
            break;
        }
        out_buffer[output_i..(output_i + s.len())].copy_from_slice(s.as_bytes());

        // Update our counters.
        input_i += code.len_utf16() * 2;
        output_i += s.len();
    }

    Ok((
        unsafe { core::str::from_utf8_unchecked(&out_buffer[..output_i]) },
        input_i,
    ))
}

#[cfg(test)]
mod tests {
    use super::*;

    #[test]
    fn encode_01() {
        let text = "こんにちは！";
        let mut buf = [0u8; 1];
        let (encoded, consumed_count) = encode_from_str(text, &mut buf).unwrap();
        assert_eq!(consumed_count, 0);
        assert_eq!(encoded, &[]);
    }

    #[test]
    fn encode_02() {
        let text = "こんにちは！";
        let mut buf = [0u8; 2];
        let (encoded, consumed_count) = encode_from_str(text, &mut buf).unwrap();
        assert_eq!(consumed_count, 3);
        assert_eq!(encoded, &[0x53, 0x30]);
    }

    #[test]
    fn encode_03() {
        let text = "こんにちは！";
        let mut buf = [0u8; 3];
        let (encoded, consumed_count) = encode_from_str(text, &mut buf).unwrap();
        assert_eq!(consumed_count, 3);
        assert_eq!(encoded, &[0x53, 0x30]);
    }

    #[test]
    fn encode_04() {
        let text = "😺😼";
        let mut buf = [0u8; 3];
        let (encoded, consumed_count) = encode_from_str(text, &mut buf).unwrap();
        assert_eq!(consumed_count, 0);
        assert_eq!(encoded, &[]);
    }

    #[test]
    fn encode_05() {
        let text = "😺😼";
        let mut buf = [0u8; 4];
        let (encoded, consumed_count) = encode_from_str(text, &mut buf).unwrap();
        assert_eq!(consumed_count, 4);
        assert_eq!(encoded, &[0x3D, 0xD8, 0x3A, 0xDE]);
    }

    #[test]
    fn encode_06() {
        let text = "😺😼";
        let mut buf = [0u8; 7];
        let (encoded, consumed_count) = encode_from_str(text, &mut buf).unwrap();
        assert_eq!(consumed_count, 4);
        assert_eq!(encoded, &[0x3D, 0xD8, 0x3A, 0xDE]);
    }

    #[test]
    fn decode_01() {
        let data = [
            0x53, 0x30, 0x93, 0x30, 0x6B, 0x30, 0x61, 0x30, 0x6F, 0x30, 0x01, 0xFF,
        ]; // "こんにちは！"
        let mut buf = [0u8; 2];
        let (decoded, consumed_count) = decode_to_str(&data, &mut buf, true).unwrap();
        assert_eq!(consumed_count, 0);
        assert_eq!(decoded, "");
    }

    #[test]
    fn decode_02() {
        let data = [
            0x53, 0x30, 0x93, 0x30, 0x6B, 0x30, 0x61, 0x30, 0x6F, 0x30, 0x01, 0xFF,
        ]; // "こんにちは！"
        let mut buf = [0u8; 3];
        let (decoded, consumed_count) = decode_to_str(&data, &mut buf, true).unwrap();
        assert_eq!(consumed_count, 2);
        assert_eq!(decoded, "こ");
    }

    #[test]
    fn decode_03() {
        let data = [
            0x53, 0x30, 0x93, 0x30, 0x6B, 0x30, 0x61, 0x30, 0x6F, 0x30, 0x01, 0xFF,
        ]; // "こんにちは！"
        let mut buf = [0u8; 5];
        let (decoded, consumed_count) = decode_to_str(&data, &mut buf, true).unwrap();
        assert_eq!(consumed_count, 2);
        assert_eq!(decoded, "こ");
    }

    #[test]
    fn decode_04() {
        let data = [0x3D, 0xD8, 0x3A, 0xDE, 0x3D, 0xD8, 0x3C, 0xDE]; // "😺😼"
        let mut buf = [0u8; 3];
        let (decoded, consumed_count) = decode_to_str(&data, &mut buf, true).unwrap();
        assert_eq!(consumed_count, 0);
        assert_eq!(decoded, "");
    }

    #[test]
    fn decode_05() {
        let data = [0x3D, 0xD8, 0x3A, 0xDE, 0x3D, 0xD8, 0x3C, 0xDE]; // "😺😼"
        let mut buf = [0u8; 4];
        let (decoded, consumed_count) = decode_to_str(&data, &mut buf, true).unwrap();
        assert_eq!(consumed_count, 4);
        assert_eq!(decoded, "😺");
    }

    #[test]
    fn decode_06() {
        let data = [0x3D, 0xD8, 0x3A, 0xDE, 0x3D, 0xD8, 0x3C, 0xDE]; // "😺😼"
        let mut buf = [0u8; 7];
        let (decoded, consumed_count) = decode_to_str(&data, &mut buf, true).unwrap();
        assert_eq!(consumed_count, 4);
        assert_eq!(decoded, "😺");
    }

    #[test]
    fn decode_07() {
        let data = [0x3D, 0xD8, 0x3A, 0xDE, 0x3D, 0xD8]; // "😺😼" with last codepoint chopped off.
        let mut buf = [0u8; 64];
        let (decoded, consumed_count) = decode_to_str(&data, &mut buf, false).unwrap();
        assert_eq!(consumed_count, 4);
        assert_eq!(decoded, "😺");
    }

    #[test]
    fn decode_08() {
        let data = [0x3D, 0xD8, 0x3A, 0xDE, 0x3D, 0xD8, 0x3C]; // "😺😼" with last byte chopped off.
        let mut buf = [0u8; 64];
        let (decoded, consumed_count) = decode_to_str(&data, &mut buf, false).unwrap();
        assert_eq!(consumed_count, 4);
        assert_eq!(decoded, "😺");
    }

    #[test]
    fn decode_09() {
        let data = [0x3D, 0xD8, 0x3A, 0xDE, 0x3D]; // "😺😼" with last 3 bytes chopped off.
        let mut buf = [0u8; 64];
        let (decoded, consumed_count) = decode_to_str(&data, &mut buf, false).unwrap();
        assert_eq!(consumed_count, 4);
        assert_eq!(decoded, "😺");
    }

    #[test]
    fn decode_error_01() {
        let data = [
            0x3A, 0xDE, 0x93, 0x30, 0x6B, 0x30, 0x61, 0x30, 0x6F, 0x30, 0x01, 0xFF,
        ]; // "こんにちは！" with an error on the first char (end surrogate)
        let mut buf = [0u8; 2];
        let error = decode_to_str(&data, &mut buf, true);
        assert_eq!(
            error,
            Err(DecodeError {
                cause: DecodeErrorCause::InvalidData,
                error_range: (0, 2),
                output_bytes_written: 0,
            })
        );
    }

    #[test]
    fn decode_error_02() {
        let data = [
            0x53, 0x30, 0x3A, 0xDE, 0x6B, 0x30, 0x61, 0x30, 0x6F, 0x30, 0x01, 0xFF,
        ]; // "こんにちは！" with an error on the second char (end surrogate)
        let mut buf = [0u8; 3];
        let error = decode_to_str(&data, &mut buf, true);
        assert_eq!(
            error,
            Err(DecodeError {
                cause: DecodeErrorCause::InvalidData,
                error_range: (2, 4),
                output_bytes_written: 3,
            })
        );
    }

    #[test]
    fn decode_error_03() {
        let data = [
            0x53, 0x30, 0x93, 0x30, 0x6B, 0x30, 0x3A, 0xDE, 0x6F, 0x30, 0x01, 0xFF,
        ]; // "こんにちは！" with an error on the fourth char (end surrogate)
        let mut buf = [0u8; 64];
        let error = decode_to_str(&data, &mut buf, true);
        assert_eq!(
            error,
            Err(DecodeError {
                cause: DecodeErrorCause::InvalidData,
                error_range: (6, 8),
                output_bytes_written: 9,
            })
        );
    }

    #[test]
    fn decode_error_04() {
        let data = [
            0x3D, 0xD8, 0x93, 0x30, 0x6B, 0x30, 0x61, 0x30, 0x6F, 0x30, 0x01, 0xFF,
        ]; // "こんにちは！" with an error on the first char (start surrogate)
        let mut buf = [0u8; 2];
        let error = decode_to_str(&data, &mut buf, true);
        assert_eq!(
            error,
            Err(DecodeError {
                cause: DecodeErrorCause::InvalidData,
                error_range: (0, 2),
                output_bytes_written: 0,
            })
        );
    }

    #[test]
    fn decode_error_05() {
        let data = [
            0x53, 0x30, 0x3D, 0xD8, 0x6B, 0x30, 0x61, 0x30, 0x6F, 0x30, 0x01, 0xFF,
        ]; // "こんにちは！" with an error on the second char (start surrogate)
        let mut buf = [0u8; 3];
        let error = decode_to_str(&data, &mut buf, true);
        assert_eq!(
            error,
            Err(DecodeError {
                cause: DecodeErrorCause::InvalidData,
                error_range: (2, 4),
                output_bytes_written: 3,
            })
        );
    }

    #[test]
    fn decode_error_06() {
        let data = [
            0x53, 0x30, 0x93, 0x30, 0x6B, 0x30, 0x3D, 0xD8, 0x6F, 0x30, 0x01, 0xFF,
        ]; // "こんにちは！" with an error on the fourth char (start surrogate)
        let mut buf = [0u8; 64];
        let error = decode_to_str(&data, &mut buf, true);
        assert_eq!(
            error,
            Err(DecodeError {
                cause: DecodeErrorCause::InvalidData,
                error_range: (6, 8),
                output_bytes_written: 9,
            })
        );
    }

    #[test]
    fn decode_error_07() {
        let data = [0x3D, 0xD8, 0x3A, 0xDE, 0x3D, 0xD8]; // "😺😼" with last codepoint chopped off.
        let mut buf = [0u8; 64];
        let error = decode_to_str(&data, &mut buf, true);
        assert_eq!(
            error,
            Err(DecodeError {
                cause: DecodeErrorCause::InvalidData,
                error_range: (4, 6),
                output_bytes_written: 4,
            })
        );
    }

    #[test]
    fn decode_error_08() {
        let data = [0x3D, 0xD8, 0x3A, 0xDE, 0x3D, 0xD8, 0x3C]; // "😺😼" with last byte chopped off.
        let mut buf = [0u8; 64];
        let error = decode_to_str(&data, &mut buf, true);
        assert_eq!(
            error,
            Err(DecodeError {
                cause: DecodeErrorCause::InvalidData,
                error_range: (4, 7),
                output_bytes_written: 4,
            })
        );
    }

    #[test]
    fn decode_error_09() {
        let data = [0x3D, 0xD8, 0x3A, 0xDE, 0x3D]; // "😺😼" with last 3 bytes chopped off.
        let mut buf = [0u8; 64];
        let error = decode_to_str(&data, &mut buf, true);
        assert_eq!(
            error,
            Err(DecodeError {
                cause: DecodeErrorCause::InvalidData,
                error_range: (4, 5),
                output_bytes_written: 4,
            })
        );
    }
}
"##

/-- src/utf32_be.rs:1-383 -/
def utf32_be : List Text := lines! r##"//! Big-endian UTF-32.

use core;
use {DecodeError, DecodeErrorCause, DecodeResult, EncodeResult};

pub fn encode_from_str<'a>(input: &str, out_buffer: &'a mut [u8]) -> EncodeResult<'a> {
    // Do the encode.
    let mut input_i = 0;
    let mut output_i = 0;
    for (offset, c) in input.char_indices() {
        if (output_i + 3) < out_buffer.len() {
            let code = (c as u32).to_be_bytes();
            out_buffer[output_i] = code[0];
            out_buffer[output_i + 1] = code[1];
            out_buffer[output_i + 2] = code[2];
            out_buffer[output_i + 3] = code[3];
            output_i += 4;
            input_i = offset + 1;
        } else {
            break;
        }
    }

    // Calculate how much of the input was consumed.
    if input_i > input.len() {
        input_i = input.len();
    } else {
        while !input.is_char_boundary(input_i) {
            input_i += 1;
        }
    }

    Ok((&out_buffer[..output_i], input_i))
}

pub fn decode_to_str<'a>(input: &[u8], out_buffer: &'a mut [u8], is_end: bool) -> DecodeResult<'a> {
    let mut input_i = 0;
    let mut output_i = 0;

    // Loop through the input, getting 4 bytes at a time.
    for bytes in input.chunks(4) {
        if bytes.len() < 4 {
            if !is_end {
                break;
            } else {
                // Error: incomplete data at end-of-input.
                return Err(DecodeError {
                    cause: DecodeErrorCause::InvalidData,
                    error_range: (input_i, input.len()),
                    output_bytes_written: output_i,
                });
            }
        }

        // Do the decode.
        if let Some(code) =
            core::char::from_u32(u32::from_be_bytes([bytes[0], bytes[1], bytes[2], bytes[3]]))
        {
            // Encode to utf8.
            let mut buf = [0u8; 4];
            let s = code.encode_utf8(&mut buf);
            if (output_i + s.len()) > out_buffer.len() {
                break;
            }
            out_buffer[output_i..(output_i + s.len())].copy_from_slice(s.as_bytes());

            // Update our counters.
            input_i += 4;
            output_i += s.len();
        } else {
            // Error: invalid codepoint.
            return Err(DecodeError {
                cause: DecodeErrorCause::InvalidData,
                error_range: (input_i, input_i + 4),
                output_bytes_written: output_i,
            });
        }
    }

    Ok((
        unsafe { core::str::from_utf8_unchecked(&out_buffer[..output_i]) },
        input_i,
    ))
}

#[cfg(test)]
mod tests {
    use super::*;

    #[test]
    fn encode_01() {
        let text = "こんにちは！";
        let mut buf = [0u8; 3];
        let (encoded, consumed_count) = encode_from_str(text, &mut buf).unwrap();
        assert_eq!(consumed_count, 0);
        assert_eq!(encoded, &[]);
    }

    #[test]
    fn encode_02() {
        let text = "こんにちは！";
        let mut buf = [0u8; 4];
        let (encoded, consumed_count) = encode_from_str(text, &mut buf).unwrap();
        assert_eq!(consumed_count, 3);
        assert_eq!(encoded, &[0x00, 0x00, 0x30, 0x53]);
    }

    #[test]
    fn encode_03() {
        let text = "こんにちは！";
        let mut buf = [0u8; 7];
        let (encoded, consumed_count) = encode_from_str(text, &mut buf).unwrap();
        assert_eq!(consumed_count, 3);
        assert_eq!(encoded, &[0x00, 0x00, 0x30, 0x53]);
    }

    #[test]
    fn encode_04() {
        let text = "😺😼";
        let mut buf = [0u8; 3];
        let (encoded, consumed_count) = encode_from_str(text, &mut buf).unwrap();
        assert_eq!(consumed_count, 0);
        assert_eq!(encoded, &[]);
    }

    #[test]
    fn encode_05() {
        let text = "😺😼";
        let mut buf = [0u8; 4];
        let (encoded, consumed_count) = encode_from_str(text, &mut buf).unwrap();
        assert_eq!(consumed_count, 4);
        assert_eq!(encoded, &[0x00, 0x01, 0xF6, 0x3A]);
    }

    #[test]
    fn encode_06() {
        let text = "😺😼";
        let mut buf = [0u8; 7];
        let (encoded, consumed_count) = encode_from_str(text, &mut buf).unwrap();
        assert_eq!(consumed_count, 4);
        assert_eq!(encoded, &[0x00, 0x01, 0xF6, 0x3A]);
    }

    #[test]
    fn decode_01() {
        let data = [
            0x00, 0x00, 0x30, 0x53, 0x00, 0x00, 0x30, 0x93, 0x00, 0x00, 0x30, 0x6B, 0x00, 0x00,
            0x30, 0x61, 0x00, 0x00, 0x30, 0x6F, 0x00, 0x00, 0xFF, 0x01,
        ]; // "こんにちは！"
        let mut buf = [0u8; 2];
        let (decoded, consumed_count) = decode_to_str(&data, &mut buf, true).unwrap();
        assert_eq!(consumed_count, 0);
        assert_eq!(decoded, "");
    }

    #[test]
    fn decode_02() {
        let data = [
            0x00, 0x00, 0x30, 0x53, 0x00, 0x00, 0x30, 0x93, 0x00, 0x00, 0x30, 0x6B, 0x00, 0x00,
            0x30, 0x61, 0x00, 0x00, 0x30, 0x6F, 0x00, 0x00, 0xFF, 0x01,
        ]; // "こんにちは！"
        let mut buf = [0u8; 3];
        let (decoded, consumed_count) = decode_to_str(&data, &mut buf, true).unwrap();
        assert_eq!(consumed_count, 4);
        assert_eq!(decoded, "こ");
    }

    #[test]
    fn decode_03() {
        let data = [
            0x00, 0x00, 0x30, 0x53, 0x00, 0x00, 0x30, 0x93, 0x00, 0x00, 0x30, 0x6B, 0x00, 0x00,
            0x30, 0x61, 0x00, 0x00, 0x30, 0x6F, 0x00, 0x00, 0xFF, 0x01,
        ]; // "こんにちは！"
        let mut buf = [0u8; 5];
        let (decoded, consumed_count) = decode_to_str(&data, &mut buf, true).unwrap();
        assert_eq!(consumed_count, 4);
        assert_eq!(decoded, "こ");
    }

    #[test]
    fn decode_04() {
        let data = [0x00, 0x01, 0xF6, 0x3A, 0x00, 0x01, 0xF6, 0x3C]; // "😺😼"
        let mut buf = [0u8; 3];
        let (decoded, consumed_count) = decode_to_str(&data, &mut buf, true).unwrap();
        assert_eq!(consumed_count, 0);
        assert_eq!(decoded, "");
    }

    #[test]
    fn decode_05() {
        let data = [0x00, 0x01, 0xF6, 0x3A, 0x00, 0x01, 0xF6, 0x3C]; // "😺😼"
        let mut buf = [0u8; 4];
        let (decoded, consumed_count) = decode_to_str(&data, &mut buf, true).unwrap();
        assert_eq!(consumed_count, 4);
        assert_eq!(decoded, "😺");
    }

    #[test]
    fn decode_06() {
        let data = [0x00, 0x01, 0xF6, 0x3A, 0x00, 0x01, 0xF6, 0x3C]; // "😺😼"
        let mut buf = [0u8; 7];
        let (decoded, consumed_count) = decode_to_str(&data, &mut buf, true).unwrap();
        assert_eq!(consumed_count, 4);
        assert_eq!(decoded, "😺");
    }

    #[test]
    fn decode_07() {
        let data = [0x00, 0x01, 0xF6, 0x3A, 0x00, 0x01, 0xF6]; // "😺😼" with last byte chopped off.
        let mut buf = [0u8; 64];
        let (decoded, consumed_count) = decode_to_str(&data, &mut buf, false).unwrap();
        assert_eq!(consumed_count, 4);
        assert_eq!(decoded, "😺");
    }

    #[test]
    fn decode_08() {
        let data = [0x00, 0x01, 0xF6, 0x3A, 0x00, 0x01]; // "😺😼" with last 2 bytes chopped off.
        let mut buf = [0u8; 64];
        let (decoded, consumed_count) = decode_to_str(&data, &mut buf, false).unwrap();
        assert_eq!(consumed_count, 4);
        assert_eq!(decoded, "😺");
    }

    #[test]
    fn decode_09() {
        let data = [0x00, 0x01, 0xF6, 0x3A, 0x00]; // "😺😼" with last 3 bytes chopped off.
        let mut buf = [0u8; 64];
        let (decoded, consumed_count) = decode_to_str(&data, &mut buf, false).unwrap();
        assert_eq!(consumed_count, 4);
        assert_eq!(decoded, "😺");
    }

    #[test]
    fn decode_error_01() {
        let data = [
            0x00, 0x11, 0x00, 0x00, 0x00, 0x00, 0x30, 0x93, 0x00, 0x00, 0x30, 0x6B, 0x00, 0x00,
            0x30, 0x61, 0x00, 0x00, 0x30, 0x6F, 0x00, 0x00, 0xFF, 0x01,
        ]; // "こんにちは！" with an error on the first char (value out of range)
        let mut buf = [0u8; 2];
        assert_eq!(
            decode_to_str(&data, &mut buf, true),
            Err(DecodeError {
                cause: DecodeErrorCause::InvalidData,
                error_range: (0, 4),
                output_bytes_written: 0,
            })
        );
    }

    #[test]
    fn decode_error_02() {
        let data = [
            0x00, 0x00, 0xD8, 0x00, 0x00, 0x00, 0x30, 0x93, 0x00, 0x00, 0x30, 0x6B, 0x00, 0x00,
            0x30, 0x61, 0x00, 0x00, 0x30, 0x6F, 0x00, 0x00, 0xFF, 0x01,
        ]; // "こんにちは！" with an error on the first char (value in surrogate range)
        let mut buf = [0u8; 2];
        assert_eq!(
            decode_to_str(&data, &mut buf, true),
            Err(DecodeError {
                cause: DecodeErrorCause::InvalidData,
                error_range: (0, 4),
                output_bytes_written: 0,
            })
        );
    }

    #[test]
    fn decode_error_03() {
        let data = [
            0x00, 0x00, 0xDF, 0xFF, 0x00, 0x00, 0x30, 0x93, 0x00, 0x00, 0x30, 0x6B, 0x00, 0x00,
            0x30, 0x61, 0x00, 0x00, 0x30, 0x6F, 0x00, 0x00, 0xFF, 0x01,
        ]; // "こんにちは！" with an error on the first char (value in surrogate range)
        let mut buf = [0u8; 64];
        assert_eq!(
            decode_to_str(&data, &mut buf, true),
            Err(DecodeError {
                cause: DecodeErrorCause::InvalidData,
                error_range: (0, 4),
                output_bytes_written: 0,
            })
        );
    }

    #[test]
    fn decode_error_04() {
        let data = [
            0x00, 0x00, 0x30, 0x53, 0x00, 0x11, 0x00, 0x00, 0x00, 0x00, 0x30, 0x6B, 0x00, 0x00,
            0x30, 0x61, 0x00, 0x00, 0x30, 0x6F, 0x00, 0x00, 0xFF, 0x01,
        ]; // "こんにちは！" with an error on the second char (value out of range)
        let mut buf = [0u8; 64];
        assert_eq!(
            decode_to_str(&data, &mut buf, true),
            Err(DecodeError {
                cause: DecodeErrorCause::InvalidData,
                error_range: (4, 8),
                output_bytes_written: 3,
            })
        );
        assert_eq!(&buf[..3], &[0xE3, 0x81, 0x93]);
    }

    #[test]
    fn decode_error_05() {
        let data = [
            0x00, 0x00, 0x30, 0x53, 0x00, 0x00, 0xD8, 0x00, 0x00, 0x00, 0x30, 0x6B, 0x00, 0x00,
            0x30, 0x61, 0x00, 0x00, 0x30, 0x6F, 0x00, 0x00, 0xFF, 0x01,
        ]; // "こんにちは！" with an error on the second char (value in surrogate range)
        let mut buf = [0u8; 64];
        assert_eq!(
            decode_to_str(&data, &mut buf, true),
            Err(DecodeError {
                cause: DecodeErrorCause::InvalidData,
                error_range: (4, 8),
                output_bytes_written: 3,
            })
        );
        assert_eq!(&buf[..3], &[0xE3, 0x81, 0x93]);
    }

    #[test]
    fn decode_error_06() {
        let data = [
            0x00, 0x00, 0x30, 0x53, 0x00, 0x00, 0xDF, 0xFF, 0x00, 0x00, 0x30, 0x6B, 0x00, 0x00,
            0x30, 0x61, 0x00, 0x00, 0x30, 0x6F, 0x00, 0x00, 0xFF, 0x01,
        ]; // "こんにちは！" with an error on the second char (value in surrogate range)
        let mut buf = [0u8; 64];
        assert_eq!(
            decode_to_str(&data, &mut buf, true),
            Err(DecodeError {
                cause: DecodeErrorCause::InvalidData,
                error_range: (4, 8),
                output_bytes_written: 3,
            })
        );
        assert_eq!(&buf[..3], &[0xE3, 0x81, 0x93]);
    }

    #[test]
    fn decode_error_07() {
        let data = [0x00, 0x01, 0xF6, 0x3A, 0x00, 0x01, 0xF6]; // "😺😼" with last byte chopped off.
        let mut buf = [0u8; 64];
        assert_eq!(
            decode_to_str(&data, &mut buf, true),
            Err(DecodeError {
                cause: DecodeErrorCause::InvalidData,
                error_range: (4, 7),
                output_bytes_written: 4,
            })
        );
        assert_eq!(&buf[..4], &[0xF0, 0x9F, 0x98, 0xBA]);
    }

    #[test]
    fn decode_error_08() {
        let data = [0x00, 0x01, 0xF6, 0x3A, 0x00, 0x01]; // "😺😼" with last 2 bytes chopped off.
        let mut buf = [0u8; 64];
        assert_eq!(
            decode_to_str(&data, &mut buf, true),
            Err(DecodeError {
                cause: DecodeErrorCause::InvalidData,
                error_range: (4, 6),
                output_bytes_written: 4,
            })
        );
        assert_eq!(&buf[..4], &[0xF0, 0x9F, 0x98, 0xBA]);
    }

    #[test]
    fn decode_error_09() {
        let data = [0x00, 0x01, 0xF6, 0x3A, 0x00]; // "😺😼" with last 3 bytes chopped off.
        let mut buf = [0u8; 64];
        assert_eq!(
            decode_to_str(&data, &mut buf, true),
            Err(DecodeError {
                cause: DecodeErrorCause::InvalidData,
                error_range: (4, 5),
                output_bytes_written: 4,
            })
        );
        assert_eq!(&buf[..4], &[0xF0, 0x9F, 0x98, 0xBA]);
    }
}
"##

/-- src/utf32_le.rs:1-383 -/
def utf32_le : List Text := lines! r##"//! Little-endian UTF-32.

use core;
use {DecodeError, DecodeErrorCause, DecodeResult, EncodeResult};

pub fn encode_from_str<'a>(input: &str, out_buffer: &'a mut [u8]) -> EncodeResult<'a> {
    // Do the encode.
    let mut input_i = 0;
    let mut output_i = 0;
    for (offset, c) in input.char_indices() {
        if (output_i + 3) < out_buffer.len() {
            let code = (c as u32).to_le_bytes();
            out_buffer[output_i] = code[0];
            out_buffer[output_i + 1] = code[1];
            out_buffer[output_i + 2] = code[2];
            out_buffer[output_i + 3] = code[3];
            output_i += 4;
            input_i = offset + 1;
        } else {
            break;
        }
    }

    // Calculate how much of the input was consumed.
    if input_i > input.len() {
        input_i = input.len();
    } else {
        while !input.is_char_boundary(input_i) {
            input_i += 1;
        }
    }

    Ok((&out_buffer[..output_i], input_i))
}

pub fn decode_to_str<'a>(input: &[u8], out_buffer: &'a mut [u8], is_end: bool) -> DecodeResult<'a> {
    let mut input_i = 0;
    let mut output_i = 0;

    // Loop through the input, getting 4 bytes at a time.
    for bytes in input.chunks(4) {
        if bytes.len() < 4 {
            if !is_end {
                break;
            } else {
                // Error: incomplete data at end-of-input.
                return Err(DecodeError {
                    cause: DecodeErrorCause::InvalidData,
                    error_range: (input_i, input.len()),
                    output_bytes_written: output_i,
                });
            }
        }

        // Do the decode.
        if let Some(code) =
            core::char::from_u32(u32::from_le_bytes([bytes[0], bytes[1], bytes[2], bytes[3]]))
        {
            // Encode to utf8.
            let mut buf = [0u8; 4];
            let s = code.encode_utf8(&mut buf);
            if (output_i + s.len()) > out_buffer.len() {
                break;
            }
            out_buffer[output_i..(output_i + s.len())].copy_from_slice(s.as_bytes());

            // Update our counters.
            input_i += 4;
            output_i += s.len();
        } else {
            // Error: invalid codepoint.
            return Err(DecodeError {
                cause: DecodeErrorCause::InvalidData,
                error_range: (input_i, input_i + 4),
                output_bytes_written: output_i,
            });
        }
    }

    Ok((
        unsafe { core::str::from_utf8_unchecked(&out_buffer[..output_i]) },
        input_i,
    ))
}

#[cfg(test)]
mod tests {
    use super::*;

    #[test]
    fn encode_01() {
        let text = "こんにちは！";
        let mut buf = [0u8; 3];
        let (encoded, consumed_count) = encode_from_str(text, &mut buf).unwrap();
        assert_eq!(consumed_count, 0);
        assert_eq!(encoded, &[]);
    }

    #[test]
    fn encode_02() {
        let text = "こんにちは！";
        let mut buf = [0u8; 4];
        let (encoded, consumed_count) = encode_from_str(text, &mut buf).unwrap();
        assert_eq!(consumed_count, 3);
        assert_eq!(encoded, &[0x53, 0x30, 0x00, 0x00]);
    }

    #[test]
    fn encode_03() {
        let text = "こんにちは！";
        let mut buf = [0u8; 7];
        let (encoded, consumed_count) = encode_from_str(text, &mut buf).unwrap();
        assert_eq!(consumed_count, 3);
        assert_eq!(encoded, &[0x53, 0x30, 0x00, 0x00]);
    }

    #[test]
    fn encode_04() {
        let text = "😺😼";
        let mut buf = [0u8; 3];
        let (encoded, consumed_count) = encode_from_str(text, &mut buf).unwrap();
        assert_eq!(consumed_count, 0);
        assert_eq!(encoded, &[]);
    }

    #[test]
    fn encode_05() {
        let text = "😺😼";
        let mut buf = [0u8; 4];
        let (encoded, consumed_count) = encode_from_str(text, &mut buf).unwrap();
        assert_eq!(consumed_count, 4);
        assert_eq!(encoded, &[0x3A, 0xF6, 0x01, 0x00]);
    }

    #[test]
    fn encode_06() {
        let text = "😺😼";
        let mut buf = [0u8; 7];
        let (encoded, consumed_count) = encode_from_str(text, &mut buf).unwrap();
        assert_eq!(consumed_count, 4);
        assert_eq!(encoded, &[0x3A, 0xF6, 0x01, 0x00]);
    }

    #[test]
    fn decode_01() {
        let data = [
            0x53, 0x30, 0x00, 0x00, 0x93, 0x30, 0x00, 0x00, 0x6B, 0x30, 0x00, 0x00, 0x61, 0x30,
            0x00, 0x00, 0x6F, 0x30, 0x00, 0x00, 0x01, 0xFF, 0x00, 0x00,
        ]; // "こんにちは！"
        let mut buf = [0u8; 2];
        let (decoded, consumed_count) = decode_to_str(&data, &mut buf, true).unwrap();
        assert_eq!(consumed_count, 0);
        assert_eq!(decoded, "");
    }

    #[test]
    fn decode_02() {
        let data = [
            0x53, 0x30, 0x00, 0x00, 0x93, 0x30, 0x00, 0x00, 0x6B, 0x30, 0x00, 0x00, 0x61, 0x30,
            0x00, 0x00, 0x6F, 0x30, 0x00, 0x00, 0x01, 0xFF, 0x00, 0x00,
        ]; // "こんにちは！"
        let mut buf = [0u8; 3];
        let (decoded, consumed_count) = decode_to_str(&data, &mut buf, true).unwrap();
        assert_eq!(consumed_count, 4);
        assert_eq!(decoded, "こ");
    }

    #[test]
    fn decode_03() {
        let data = [
            0x53, 0x30, 0x00, 0x00, 0x93, 0x30, 0x00, 0x00, 0x6B, 0x30, 0x00, 0x00, 0x61, 0x30,
            0x00, 0x00, 0x6F, 0x30, 0x00, 0x00, 0x01, 0xFF, 0x00, 0x00,
        ]; // "こんにちは！"
        let mut buf = [0u8; 5];
        let (decoded, consumed_count) = decode_to_str(&data, &mut buf, true).unwrap();
        assert_eq!(consumed_count, 4);
        assert_eq!(decoded, "こ");
    }

    #[test]
    fn decode_04() {
        let data = [0x3A, 0xF6, 0x01, 0x00, 0x3C, 0xF6, 0x01, 0x00]; // "😺😼"
        let mut buf = [0u8; 3];
        let (decoded, consumed_count) = decode_to_str(&data, &mut buf, true).unwrap();
        assert_eq!(consumed_count, 0);
        assert_eq!(decoded, "");
    }

    #[test]
    fn decode_05() {
        let data = [0x3A, 0xF6, 0x01, 0x00, 0x3C, 0xF6, 0x01, 0x00]; // "😺😼"
        let mut buf = [0u8; 4];
        let (decoded, consumed_count) = decode_to_str(&data, &mut buf, true).unwrap();
        assert_eq!(consumed_count, 4);
        assert_eq!(decoded, "😺");
    }

    #[test]
    fn decode_06() {
        let data = [0x3A, 0xF6, 0x01, 0x00, 0x3C, 0xF6, 0x01, 0x00]; // "😺😼"
        let mut buf = [0u8; 7];
        let (decoded, consumed_count) = decode_to_str(&data, &mut buf, true).unwrap();
        assert_eq!(consumed_count, 4);
        assert_eq!(decoded, "😺");
    }

    #[test]
    fn decode_07() {
        let data = [0x3A, 0xF6, 0x01, 0x00, 0x3C, 0xF6, 0x01]; // "😺😼" with last byte chopped off.
        let mut buf = [0u8; 64];
        let (decoded, consumed_count) = decode_to_str(&data, &mut buf, false).unwrap();
        assert_eq!(consumed_count, 4);
        assert_eq!(decoded, "😺");
    }

    #[test]
    fn decode_08() {
        let data = [0x3A, 0xF6, 0x01, 0x00, 0x3C, 0xF6]; // "😺😼" with last 2 bytes chopped off.
        let mut buf = [0u8; 64];
        let (decoded, consumed_count) = decode_to_str(&data, &mut buf, false).unwrap();
        assert_eq!(consumed_count, 4);
        assert_eq!(decoded, "😺");
    }

    #[test]
    fn decode_09() {
        let data = [0x3A, 0xF6, 0x01, 0x00, 0x3C]; // "😺😼" with last 3 bytes chopped off.
        let mut buf = [0u8; 64];
        let (decoded, consumed_count) = decode_to_str(&data, &mut buf, false).unwrap();
        assert_eq!(consumed_count, 4);
        assert_eq!(decoded, "😺");
    }

    #[test]
    fn decode_error_01() {
        let data = [
            0x00, 0x00, 0x11, 0x00, 0x93, 0x30, 0x00, 0x00, 0x6B, 0x30, 0x00, 0x00, 0x61, 0x30,
            0x00, 0x00, 0x6F, 0x30, 0x00, 0x00, 0x01, 0xFF, 0x00, 0x00,
        ]; // "こんにちは！" with an error on the first char (value out of range)
        let mut buf = [0u8; 2];
        assert_eq!(
            decode_to_str(&data, &mut buf, true),
            Err(DecodeError {
                cause: DecodeErrorCause::InvalidData,
                error_range: (0, 4),
                output_bytes_written: 0,
            })
        );
    }

    #[test]
    fn decode_error_02() {
        let data = [
            0x00, 0xD8, 0x00, 0x00, 0x93, 0x30, 0x00, 0x00, 0x6B, 0x30, 0x00, 0x00, 0x61, 0x30,
            0x00, 0x00, 0x6F, 0x30, 0x00, 0x00, 0x01, 0xFF, 0x00, 0x00,
        ]; // "こんにちは！" with an error on the first char (value in surrogate range)
        let mut buf = [0u8; 2];
        assert_eq!(
            decode_to_str(&data, &mut buf, true),
            Err(DecodeError {
                cause: DecodeErrorCause::InvalidData,
                error_range: (0, 4),
                output_bytes_written: 0,
            })
        );
    }

    #[test]
    fn decode_error_03() {
        let data = [
            0xFF, 0xDF, 0x00, 0x00, 0x93, 0x30, 0x00, 0x00, 0x6B, 0x30, 0x00, 0x00, 0x61, 0x30,
            0x00, 0x00, 0x6F, 0x30, 0x00, 0x00, 0x01, 0xFF, 0x00, 0x00,
        ]; // "こんにちは！" with an error on the first char (value in surrogate range)
        let mut buf = [0u8; 64];
        assert_eq!(
            decode_to_str(&data, &mut buf, true),
            Err(DecodeError {
                cause: DecodeErrorCause::InvalidData,
                error_range: (0, 4),
                output_bytes_written: 0,
            })
        );
    }

    #[test]
    fn decode_error_04() {
        let data = [
            0x53, 0x30, 0x00, 0x00, 0x00, 0x00, 0x11, 0x00, 0x6B, 0x30, 0x00, 0x00, 0x61, 0x30,
            0x00, 0x00, 0x6F, 0x30, 0x00, 0x00, 0x01, 0xFF, 0x00, 0x00,
        ]; // "こんにちは！" with an error on the second char (value out of range)
        let mut buf = [0u8; 64];
        assert_eq!(
            decode_to_str(&data, &mut buf, true),
            Err(DecodeError {
                cause: DecodeErrorCause::InvalidData,
                error_range: (4, 8),
                output_bytes_written: 3,
            })
        );
        assert_eq!(&buf[..3], &[0xE3, 0x81, 0x93]);
    }

    #[test]
    fn decode_error_05() {
        let data = [
            0x53, 0x30, 0x00, 0x00, 0x00, 0xD8, 0x00, 0x00, 0x6B, 0x30, 0x00, 0x00, 0x61, 0x30,
            0x00, 0x00, 0x6F, 0x30, 0x00, 0x00, 0x01, 0xFF, 0x00, 0x00,
        ]; // "こんにちは！" with an error on the second char (value in surrogate range)
        let mut buf = [0u8; 64];
        assert_eq!(
            decode_to_str(&data, &mut buf, true),
            Err(DecodeError {
                cause: DecodeErrorCause::InvalidData,
                error_range: (4, 8),
                output_bytes_written: 3,
            })
        );
        assert_eq!(&buf[..3], &[0xE3, 0x81, 0x93]);
    }

    #[test]
    fn decode_error_06() {
        let data = [
            0x53, 0x30, 0x00, 0x00, 0xFF, 0xDF, 0x00, 0x00, 0x6B, 0x30, 0x00, 0x00, 0x61, 0x30,
            0x00, 0x00, 0x6F, 0x30, 0x00, 0x00, 0x01, 0xFF, 0x00, 0x00,
        ]; // "こんにちは！" with an error on the second char (value in surrogate range)
        let mut buf = [0u8; 64];
        assert_eq!(
            decode_to_str(&data, &mut buf, true),
            Err(DecodeError {
                cause: DecodeErrorCause::InvalidData,
                error_range: (4, 8),
                output_bytes_written: 3,
            })
        );
        assert_eq!(&buf[..3], &[0xE3, 0x81, 0x93]);
    }

    #[test]
    fn decode_error_07() {
        let data = [0x3A, 0xF6, 0x01, 0x00, 0x3C, 0xF6, 0x01]; // "😺😼" with last byte chopped off.
        let mut buf = [0u8; 64];
        assert_eq!(
            decode_to_str(&data, &mut buf, true),
            Err(DecodeError {
                cause: DecodeErrorCause::InvalidData,
                error_range: (4, 7),
                output_bytes_written: 4,
            })
        );
        assert_eq!(&buf[..4], &[0xF0, 0x9F, 0x98, 0xBA]);
    }

    #[test]
    fn decode_error_08() {
        let data = [0x3A, 0xF6, 0x01, 0x00, 0x3C, 0xF6]; // "😺😼" with last 2 bytes chopped off.
        let mut buf = [0u8; 64];
        assert_eq!(
            decode_to_str(&data, &mut buf, true),
            Err(DecodeError {
                cause: DecodeErrorCause::InvalidData,
                error_range: (4, 6),
                output_bytes_written: 4,
            })
        );
        assert_eq!(&buf[..4], &[0xF0, 0x9F, 0x98, 0xBA]);
    }

    #[test]
    fn decode_error_09() {
        let data = [0x3A, 0xF6, 0x01, 0x00, 0x3C]; // "😺😼" with last 3 bytes chopped off.
        let mut buf = [0u8; 64];
        assert_eq!(
            decode_to_str(&data, &mut buf, true),
            Err(DecodeError {
                cause: DecodeErrorCause::InvalidData,
                error_range: (4, 5),
                output_bytes_written: 4,
            })
        );
        assert_eq!(&buf[..4], &[0xF0, 0x9F, 0x98, 0xBA]);
    }
}
"##

/-- src/shiftjis_whatwg.rs:1-522 -/
def shiftjis_whatwg : List Text := lines! r##"//! The WHATWG variant of Shift JIS.
//!
//! There is a one-to-many mapping between Unicode and WHATWG Shift JIS.
//! Therefore, decoding from WHATWG Shift JIS to `str` is lossy, because it
//! throws away distinctions made in WHATWG Shift JIS that don't exist in
//! Unicode.  Encoding from `str` to WHATWG Shift JIS, however, is lossless.
use core;
use {DecodeError, DecodeErrorCause, DecodeResult, EncodeError, EncodeResult};

// Generated by build.rs  Contains ENCODE_TABLE and DECODE_TABLE.
include!("generated/whatwg/shiftjis_whatwg_tables.rs.inc");

pub fn encode_from_str<'a>(input: &str, out_buffer: &'a mut [u8]) -> EncodeResult<'a> {
    // Do the encode.
    let mut input_i = 0;
    let mut output_i = 0;
    for (offset, c) in input.char_indices() {
        let mut code = c as u32;
        if output_i >= out_buffer.len() {
            break;
        } else if code <= 128 {
            // Ascii
            out_buffer[output_i] = code as u8;
            output_i += 1;
            input_i = offset + 1;
        } else if code == 0xA5 {
            // Special case 1
            out_buffer[output_i] = 0x5C;
            output_i += 1;
            input_i = offset + 1;
        } else if code == 0x203E {
            // Special case 2
            out_buffer[output_i] = 0x7E;
            output_i += 1;
            input_i = offset + 1;
        } else if code >= 0xFF61 && code <= 0xFF9F {
            // Special case 3
            out_buffer[output_i] = (code - 0xFF61 + 0xA1) as u8;
            output_i += 1;
            input_i = offset + 1;
        } else if (output_i + 1) < out_buffer.len() {
            let jis_bytes = if code >= 0xE000 && code <= 0xE757 {
                // Special case 5
                // Note: the WHATWG spec doesn't specify this, but it does it
                // in reverse during decoding, and these simply don't map
                // otherwise.  So we're just making it map back properly.
                let jis_ptr = code - 0xE000 + 8836;
                let lead = jis_ptr / 188;
                let lead_offset = if lead < 0x1F { 0x81 } else { 0xC1 };
                let trail = jis_ptr % 188;
                let trail_offset = if trail < 0x3F { 0x40 } else { 0x41 };
                [(lead + lead_offset) as u8, (trail + trail_offset) as u8]
            } else {
                if code == 0x2212 {
                    // Special case 4
                    code = 0xFF0D;
                }
                let code = core::char::from_u32(code).unwrap();
                if let Ok(ptr_i) = ENCODE_TABLE.binary_search_by_key(&code, |x| x.0) {
                    ENCODE_TABLE[ptr_i].1
                } else {
                    return Err(EncodeError {
                        character: c,
                        error_range: (offset, offset + c.len_utf8()),
                        output_bytes_written: output_i,
                    });
                }
            };

            out_buffer[output_i] = jis_bytes[0];
            out_buffer[output_i + 1] = jis_bytes[1];
            output_i += 2;
            input_i = offset + 1;
        } else {
            break;
        }
    }

    // Calculate how much of the input was consumed.
    if input_i > input.len() {
        input_i = input.len();
    } else {
        while !input.is_char_boundary(input_i) {
            input_i += 1;
        }
    }

    Ok((&out_buffer[..output_i], input_i))
}

/// Note: is potentially lossy.
pub fn decode_to_str<'a>(input: &[u8], out_buffer: &'a mut [u8], is_end: bool) -> DecodeResult<'a> {
    let mut input_i = 0;
    let mut output_i = 0;
    let mut buf = [0u8; 4]; // For encoding utf8 codepoints.

    // Loop through the input, getting a byte at a time.
    let mut itr = input.iter();
    while let Some(&byte_1) = itr.next() {
        if output_i >= out_buffer.len() {
            break;
        } else if byte_1 <= 127 {
            // Ascii
            out_buffer[output_i] = byte_1;
            output_i += 1;
            input_i += 1;
        } else if byte_1 == 128 {
            // Edge-case, close to ascii.
            if output_i + 1 >= out_buffer.len() {
                break;
            } else {
                out_buffer[output_i] = 0xC2;
                out_buffer[output_i + 1] = 0x80;
                output_i += 2;
                input_i += 1;
            }
        } else {
            // Get our decoded data, either from the table or by special handling.
            let (string, input_consumed) = if byte_1 >= 0xA1 && byte_1 <= 0xDF {
                // Special case 3 from encode function above.
                (
                    core::char::from_u32(byte_1 as u32 + 0xFF61 - 0xA1)
                        .unwrap()
                        .encode_utf8(&mut buf),
                    1,
                )
            } else if (byte_1 > 0x9F && byte_1 < 0xE0) || byte_1 > 0xFC {
                // Error: invalid leading byte.
                return Err(DecodeError {
                    cause: DecodeErrorCause::InvalidData,
                    error_range: (input_i, input_i + 1),
                    output_bytes_written: output_i,
                });
            } else if let Some(&byte_2) = itr.next() {
                if byte_2 < 0x40 || byte_2 == 0x7F || byte_2 > 0xFC {
                    // Error: invalid trailing byte.
                    // WHATWG dictates that if the second byte is ascii, it
                    // remains part of the stream, and thus (in our case) is
                    // not treated as part of the error.
                    return Err(DecodeError {
                        cause: DecodeErrorCause::InvalidData,
                        error_range: (input_i, input_i + if byte_2 <= 127 { 1 } else { 2 }),
                        output_bytes_written: output_i,
                    });
                }

                let jis_ptr = {
                    let lead_offset = if byte_1 < 0xA0 { 0x81 } else { 0xC1 };
                    let trail_offset = if byte_2 < 0x7F { 0x40 } else { 0x41 };
                    (byte_1 as u32 - lead_offset) * 188 + byte_2 as u32 - trail_offset
                };

                if jis_ptr >= 8836 && jis_ptr <= 10715 {
                    // Special case 5
                    (
                        core::char::from_u32(jis_ptr + 0xE000 - 8836)
                            .unwrap()
                            .encode_utf8(&mut buf),
                        2,
                    )
                } else if jis_ptr as usize >= DECODE_TABLE.len()
                    || DECODE_TABLE[jis_ptr as usize] == '�'
                {
                    // Error: correctly formed but undefined code.
                    // WHATWG dictates that if the second byte is ascii, it
                    // remains part of the stream, and thus (in our case) is
                    // not treated as part of the error.
                    return Err(DecodeError {
                        cause: DecodeErrorCause::InvalidData,
                        error_range: (input_i, input_i + if byte_2 <= 127 { 1 } else { 2 }),
                        output_bytes_written: output_i,
                    });
                } else {
                    // Encode codepoint to utf8.
                    (DECODE_TABLE[jis_ptr as usize].encode_utf8(&mut buf), 2)
                }
            } else {
                // No trailing byte available.  If it's not end-of-input, not a problem.
                // But if it is, then that's an error.
                if !is_end {
                    break;
                } else {
                    return Err(DecodeError {
                        cause: DecodeErrorCause::InvalidData,
                        error_range: (input_i, input_i + 1),
                        output_bytes_written: output_i,
                    });
                }
            };

            // Copy decoded data to output.
            if (output_i + string.len()) > out_buffer.len() {
                // Not enough space in output buffer.
                break;
            }
            out_buffer[output_i..(output_i + string.len())].copy_from_slice(string.as_bytes());

            // Update our counters.
            input_i += input_consumed;
            output_i += string.len();
        }
    }

    Ok((
        unsafe { core::str::from_utf8_unchecked(&out_buffer[..output_i]) },
        input_i,
    ))
}

#[cfg(test)]
mod tests {
    use super::*;

    // Helper function.
    fn correct_decode(input: &[u8], expected_output: &str) {
        let mut buf = [0u8; 256];
        assert_eq!(
            decode_to_str(input, &mut buf, true),
            Ok((expected_output, input.len())),
        );
    }

    // Helper function.
    fn error_decode(input: &[u8], error_range: (usize, usize), bytes_written: usize) {
        let mut buf = [0u8; 256];
        assert_eq!(
            decode_to_str(input, &mut buf, true),
            Err(DecodeError {
                cause: DecodeErrorCause::InvalidData,
                error_range: error_range,
                output_bytes_written: bytes_written,
            }),
        );
    }

    // Helper function.
    fn correct_encode(input: &str, expected_output: &[u8]) {
        let mut buf = [0u8; 256];
        assert_eq!(
            encode_from_str(input, &mut buf),
            Ok((expected_output, input.len())),
        );
    }

    // Adapted from tests in encoding_rs:
    // https://crates.io/crates/encoding_rs
    #[test]
    fn decode_01() {
        // Empty
        correct_decode(b"", &"");

        // ASCII
        correct_decode(b"\x61\x62", "\u{0061}\u{0062}");

        // Half-width
        correct_decode(b"\xA1", "\u{FF61}");
        correct_decode(b"\xDF", "\u{FF9F}");

        // EUDC
        correct_decode(b"\xF0\x40", "\u{E000}");
        correct_decode(b"\xF9\xFC", "\u{E757}");
        correct_decode(b"\xFA\x40", "\u{2170}");

        // JIS 0208
        correct_decode(b"\x81\x40", "\u{3000}");
        correct_decode(b"\xEE\xFC", "\u{FF02}");
        correct_decode(b"\xFA\x40", "\u{2170}");
        correct_decode(b"\xFC\x4B", "\u{9ED1}");
    }

    #[test]
    fn decode_02() {
        let data = b"\x8D\xA1\x93\xFA\x82\xCD\x82\xA2\x82\xA2\x82\xE6\x81\x49"; // "今日はいいよ！"
        let mut buf = [0u8; 2];
        let (decoded, consumed_count) = decode_to_str(data, &mut buf, true).unwrap();
        assert_eq!(consumed_count, 0);
        assert_eq!(decoded, "");
    }

    #[test]
    fn decode_03() {
        let data = b"\x8D\xA1\x93\xFA\x82\xCD\x82\xA2\x82\xA2\x82\xE6\x81\x49"; // "今日はいいよ！"
        let mut buf = [0u8; 3];
        let (decoded, consumed_count) = decode_to_str(data, &mut buf, true).unwrap();
        assert_eq!(consumed_count, 2);
        assert_eq!(decoded, "今");
    }

    #[test]
    fn decode_04() {
        let data = b"\x8D\xA1\x93\xFA\x82\xCD\x82\xA2\x82\xA2\x82\xE6\x81\x49"; // "今日はいいよ！"
        let mut buf = [0u8; 5];
        let (decoded, consumed_count) = decode_to_str(data, &mut buf, true).unwrap();
        assert_eq!(consumed_count, 2);
        assert_eq!(decoded, "今");
    }

    #[test]
    fn decode_05() {
        let data = b"\x8D\xA1\x81\x3F\x82\xCD\x82\xA2\x82\xA2\x82\xE6\x81\x49"; // "今日はいいよ！" with an error on the second char (invalid sequence)
        let mut buf = [0u8; 3];
        let (decoded, consumed_count) = decode_to_str(data, &mut buf, true).unwrap();
        assert_eq!(consumed_count, 2);
        assert_eq!(decoded, "今");
    }

    #[test]
    fn decode_06() {
        let data = b"\x8D\xA1\x93\xFA\x61\xD6\x82\xCD\x62"; // "今日aﾖはb"
        let mut buf = [0u8; 14];
        let (encoded, consumed_count) = decode_to_str(data, &mut buf, true).unwrap();
        assert_eq!(consumed_count, 9);
        assert_eq!(encoded, "今日aﾖはb");
    }

    #[test]
    fn decode_07() {
        let data = b"\x8D\xA1\x93\xFA\x82\xCD\x82\xA2\x82\xA2\x82\xE6\x81"; // "今日はいいよ！" with last byte chopped off.
        let mut buf = [0u8; 64];
        let (decoded, consumed_count) = decode_to_str(data, &mut buf, false).unwrap();
        assert_eq!(consumed_count, 12);
        assert_eq!(decoded, "今日はいいよ");
    }

    // Adapted from tests in encoding_rs:
    // https://crates.io/crates/encoding_rs
    #[test]
    fn decode_error_01() {
        error_decode(b"\xA0", (0, 1), 0);
        error_decode(b"\xA0+", (0, 1), 0);
        error_decode(b"\xE0+", (0, 1), 0);

        error_decode(b"\xEF\xFC", (0, 2), 0);

        error_decode(b"\x81\x3F", (0, 1), 0);
        error_decode(b"\xEE\xFD", (0, 2), 0);
        error_decode(b"\xFA\x3F", (0, 1), 0);
        error_decode(b"\xFC\x4C", (0, 1), 0);
    }

    #[test]
    fn decode_error_02() {
        let data = b"\x81\x3F\x93\xFA\x82\xCD\x82\xA2\x82\xA2\x82\xE6\x81\x49"; // "今日はいいよ！" with an error on the first char (invalid sequence)
        let mut buf = [0u8; 2];
        let error = decode_to_str(data, &mut buf, true);
        assert_eq!(
            error,
            Err(DecodeError {
                cause: DecodeErrorCause::InvalidData,
                error_range: (0, 1),
                output_bytes_written: 0,
            })
        );
    }

    #[test]
    fn decode_error_03() {
        let data = b"\x8D\xA1\x81\x3F\x82\xCD\x82\xA2\x82\xA2\x82\xE6\x81\x49"; // "今日はいいよ！" with an error on the second char (invalid sequence)
        let mut buf = [0u8; 4];
        // Scope to contain borrow.
        {
            let error = decode_to_str(data, &mut buf, true);
            assert_eq!(
                error,
                Err(DecodeError {
                    cause: DecodeErrorCause::InvalidData,
                    error_range: (2, 3),
                    output_bytes_written: 3,
                })
            );
        }
        assert_eq!(&buf[..3], b"\xE4\xBB\x8A");
    }

    #[test]
    fn decode_error_04() {
        let data = b"\x8D\xA1\x93\xFA\x82\xCD\x81\x3F\x82\xA2\x82\xE6\x81\x49"; // "今日はいいよ！" with an error on the fourth char (invalid sequence)
        let mut buf = [0u8; 64];
        // Scope to contain borrow.
        {
            let error = decode_to_str(data, &mut buf, true);
            assert_eq!(
                error,
                Err(DecodeError {
                    cause: DecodeErrorCause::InvalidData,
                    error_range: (6, 7),
                    output_bytes_written: 9,
                })
            );
        }
        assert_eq!(&buf[..9], b"\xE4\xBB\x8A\xE6\x97\xA5\xE3\x81\xAF");
    }

    #[test]
    fn decode_error_05() {
        let data = b"\x8D\xA1\x93\xFA\x82\xCD\x82\xA2\x82\xA2\x82\xE6\x81"; // "今日はいいよ！" with last byte chopped off.
        let mut buf = [0u8; 64];
        // Scope to contain borrow.
        {
            let error = decode_to_str(data, &mut buf, true);
            assert_eq!(
                error,
                Err(DecodeError {
                    cause: DecodeErrorCause::InvalidData,
                    error_range: (12, 13),
                    output_bytes_written: 18,
                })
            );
        }
        assert_eq!(&buf[..18], "今日はいいよ".as_bytes());
    }

    // Adapted from tests in encoding_rs:
    // https://crates.io/crates/encoding_rs
    #[test]
    fn encode_01() {
        // Empty
        correct_encode("", b"");

        // ASCII
        correct_encode("\u{0061}\u{0062}", b"\x61\x62");

        // Exceptional code points
        correct_encode("\u{0080}", b"\x80");
        correct_encode("\u{00A5}", b"\x5C");
        correct_encode("\u{203E}", b"\x7E");
        correct_encode("\u{2212}", b"\x81\x7C");

        // Half-width
        correct_encode("\u{FF61}", b"\xA1");
        correct_encode("\u{FF9F}", b"\xDF");

        // EUDC
        correct_encode("\u{E000}", b"\xF0\x40");
        correct_encode("\u{E757}", b"\xF9\xFC");

        // JIS 0208
        correct_encode("\u{3000}", b"\x81\x40");
        // TODO: these depend on excluding specific parts
        // of the table that contains duplicates, to force
        // using later entries.  Not sure if we want to do
        // that, even though it's specified in the WHATWG
        // spec.
        // correct_encode("\u{FF02}", b"\xFA\x57");
        // correct_encode("\u{2170}", b"\xFA\x40");
        // correct_encode("\u{9ED1}", b"\xFC\x4B");
    }

    #[test]
    fn encode_02() {
        let text = "今日はいいよ！";
        let mut buf = [0u8; 1];
        let (encoded, consumed_count) = encode_from_str(text, &mut buf).unwrap();
        assert_eq!(consumed_count, 0);
        assert_eq!(encoded, &[]);
    }

    #[test]
    fn encode_03() {
        let text = "今日はいいよ！";
        let mut buf = [0u8; 2];
        let (encoded, consumed_count) = encode_from_str(text, &mut buf).unwrap();
        assert_eq!(consumed_count, 3);
        assert_eq!(encoded, b"\x8D\xA1");
    }

    #[test]
    fn encode_04() {
        let text = "今日はいいよ！";
        let mut buf = [0u8; 3];
        let (encoded, consumed_count) = encode_from_str(text, &mut buf).unwrap();
        assert_eq!(consumed_count, 3);
        assert_eq!(encoded, b"\x8D\xA1");
    }

    #[test]
    fn encode_05() {
        let text = "今日aﾖはbいいよ！";
        let mut buf = [0u8; 9];
        let (encoded, consumed_count) = encode_from_str(text, &mut buf).unwrap();
        assert_eq!(consumed_count, 14);
        assert_eq!(encoded, b"\x8D\xA1\x93\xFA\x61\xD6\x82\xCD\x62");
    }

    #[test]
    fn encode_06() {
        let text = "今日😺はいいよ！";
        let mut buf = [0u8; 4];
        let (encoded, consumed_count) = encode_from_str(text, &mut buf).unwrap();
        assert_eq!(consumed_count, 6);
        assert_eq!(encoded, b"\x8D\xA1\x93\xFA");
    }

    #[test]
    fn encode_error_01() {
        let text = "😺今日はいいよ！";
        let mut buf = [0u8; 64];
        assert_eq!(
            encode_from_str(text, &mut buf),
            Err(EncodeError {
                character: '😺',
                error_range: (0, 4),
                output_bytes_written: 0,
            })
        );
    }

    #[test]
    fn encode_error_02() {
        let text = "今日😺はいいよ！";
        let mut buf = [0u8; 64];
        assert_eq!(
            encode_from_str(text, &mut buf),
            Err(EncodeError {
                character: '😺',
                error_range: (6, 10),
                output_bytes_written: 4,
            })
        );
        assert_eq!(&buf[..4], b"\x8D\xA1\x93\xFA");
    }
}
"##

/-- src/big5_whatwg.rs:1-576 -/
def big5_whatwg : List Text := lines! r##"//! The WHATWG variant of BIG5.
//!
//! There is a one-to-many mapping between Unicode and WHATWG
//! BIG5.  Therefore, decoding from WHATWG BIG5 to `str` is
//! lossy, because it throws away distinctions made in WHATWG
//! BIG5 that don't exist in Unicode.  Encoding from `str` to
//! WHATWG BIG5, however, is lossless.

use core;
use {DecodeError, DecodeErrorCause, DecodeResult, EncodeError, EncodeResult};

// Generated by build.rs  Contains ENCODE_TABLE and DECODE_TABLE.
include!("generated/whatwg/big5_whatwg_tables.rs.inc");

pub fn encode_from_str<'a>(
    input: &str,
    out_buffer: &'a mut [u8],
    is_end: bool,
) -> EncodeResult<'a> {
    // Do the encode.
    let mut input_i = 0;
    let mut output_i = 0;
    let mut itr = input.char_indices();
    while let Some((offset, c)) = itr.next() {
        let code = c as u32;
        if output_i >= out_buffer.len() {
            break;
        } else if code <= 127 {
            // Ascii
            out_buffer[output_i] = code as u8;
            output_i += 1;
            input_i = offset + 1;
        } else if let Ok(ptr_i) = ENCODE_TABLE.binary_search_by_key(&c, |x| x.0) {
            if (output_i + 1) < out_buffer.len() {
                // Handle graphemes.
                if code == 0xCA || code == 0xEA {
                    if let Some((offset2, c2)) = itr.clone().next() {
                        let code2 = c2 as u32;
                        if let Some(bytes) = map_grapheme(code, code2) {
                            itr.next();
                            out_buffer[output_i] = bytes[0];
                            out_buffer[output_i + 1] = bytes[1];
                            output_i += 2;
                            input_i = offset2 + 1;
                            continue;
                        }
                    } else if !is_end {
                        break;
                    }
                }

                // Common case, fetch from table.
                let big5_bytes = ENCODE_TABLE[ptr_i].1;
                out_buffer[output_i] = big5_bytes[0];
                out_buffer[output_i + 1] = big5_bytes[1];
                output_i += 2;
                input_i = offset + 1;
            } else {
                break;
            }
        } else {
            return Err(EncodeError {
                character: c,
                error_range: (offset, offset + c.len_utf8()),
                output_bytes_written: output_i,
            });
        }
    }

    // Calculate how much of the input was consumed.
    if input_i > input.len() {
        input_i = input.len();
    } else {
        while !input.is_char_boundary(input_i) {
            input_i += 1;
        }
    }

    Ok((&out_buffer[..output_i], input_i))
}

fn map_grapheme(a: u32, b: u32) -> Option<[u8; 2]> {
    match (a, b) {
        (0xCA, 0x304) => Some([0x88, 0x62]),
        (0xCA, 0x30C) => Some([0x88, 0x64]),
        (0xEA, 0x304) => Some([0x88, 0xA3]),
        (0xEA, 0x30C) => Some([0x88, 0xA5]),
        _ => None,
    }
}

/// Note: is potentially lossy.
pub fn decode_to_str<'a>(input: &[u8], out_buffer: &'a mut [u8], is_end: bool) -> DecodeResult<'a> {
    let mut input_i = 0;
    let mut output_i = 0;
    let mut buf = [0u8; 4]; // For encoding utf8 codepoints.

    // Loop through the input, getting a byte at a time.
    let mut itr = input.iter();
    while let Some(&byte_1) = itr.next() {
        if output_i >= out_buffer.len() {
            break;
        } else if byte_1 <= 127 {
            // Ascii
            out_buffer[output_i] = byte_1;
            output_i += 1;
            input_i += 1;
        } else if byte_1 == 0x80 || byte_1 == 0xFF {
            // Error: invalid leading byte.
            return Err(DecodeError {
                cause: DecodeErrorCause::InvalidData,
                error_range: (input_i, input_i + 1),
                output_bytes_written: output_i,
            });
        } else if let Some(&byte_2) = itr.next() {
            if byte_2 < 0x40 || byte_2 > 0xFE || (byte_2 > 0x7E && byte_2 < 0xA1) {
                // Error: invalid trailing byte.
                // WHATWG dictates that if the second byte is ascii, it
                // remains part of the stream, and thus (in our case) is
                // not treated as part of the error.
                return Err(DecodeError {
                    cause: DecodeErrorCause::InvalidData,
                    error_range: (input_i, input_i + if byte_2 <= 127 { 1 } else { 2 }),
                    output_bytes_written: output_i,
                });
            }
            let big5_ptr = {
                let lead = (byte_1 as usize - 0x81) * 157;
                let trail = if byte_2 < 0x7f {
                    byte_2 as usize - 0x40
                } else {
                    byte_2 as usize - 0x62
                };
                lead + trail
            };

            // Get our decoded data, either from the table or by special handling.
            let string = if big5_ptr >= DECODE_TABLE.len() || DECODE_TABLE[big5_ptr] == '�' {
                match big5_ptr {
                    // Special handling for codes that map to graphemes.
                    1133 => "\u{00CA}\u{0304}",
                    1135 => "\u{00CA}\u{030C}",
                    1164 => "\u{00EA}\u{0304}",
                    1166 => "\u{00EA}\u{030C}",
                    _ => {
                        // Error: correctly formed but undefined code.
                        // WHATWG dictates that if the second byte is ascii, it
                        // remains part of the stream, and thus (in our case) is
                        // not treated as part of the error.
                        return Err(DecodeError {
                            cause: DecodeErrorCause::InvalidData,
                            error_range: (input_i, input_i + if byte_2 <= 127 { 1 } else { 2 }),
                            output_bytes_written: output_i,
                        });
                    }
                }
            } else {
                // Encode codepoint to utf8.
                DECODE_TABLE[big5_ptr].encode_utf8(&mut buf)
            };

            // Copy decoded data to output.
            if (output_i + string.len()) > out_buffer.len() {
                break;
            }
            out_buffer[output_i..(output_i + string.len())].copy_from_slice(string.as_bytes());

            // Update our counters.
            input_i += 2;
            output_i += string.len();
        } else {
            // No available trailing byte.  If not end-of-input, no problem.
            // Otherwise it's an error.
            if !is_end {
                break;
            } else {
                return Err(DecodeError {
                    cause: DecodeErrorCause::InvalidData,
                    error_range: (input_i, input_i + 1),
                    output_bytes_written: output_i,
                });
            }
        }
    }

    Ok((
        unsafe { core::str::from_utf8_unchecked(&out_buffer[..output_i]) },
        input_i,
    ))
}

#[cfg(test)]
mod tests {
    use super::*;

    // Helper function.
    fn correct_decode(input: &[u8], expected_output: &str) {
        let mut buf = [0u8; 256];
        assert_eq!(
            decode_to_str(input, &mut buf, true),
            Ok((expected_output, input.len())),
        );
    }

    // Helper function.
    fn error_decode(input: &[u8], error_range: (usize, usize), bytes_written: usize) {
        let mut buf = [0u8; 256];
        assert_eq!(
            decode_to_str(input, &mut buf, true),
            Err(DecodeError {
                cause: DecodeErrorCause::InvalidData,
                error_range: error_range,
                output_bytes_written: bytes_written,
            }),
        );
    }

    // Adapted from tests in encoding_rs:
    // https://crates.io/crates/encoding_rs
    #[test]
    fn decode_01() {
        // ASCII
        correct_decode(&[0x61u8, 0x62u8], "\u{0061}\u{0062}");

        // Edge cases
        correct_decode(&[0x87u8, 0x40u8], "\u{43F0}");
        correct_decode(&[0xFEu8, 0xFEu8], "\u{79D4}");
        correct_decode(&[0xFEu8, 0xFDu8], "\u{2910D}");
        correct_decode(&[0x88u8, 0x62u8], "\u{00CA}\u{0304}");
        correct_decode(&[0x88u8, 0x64u8], "\u{00CA}\u{030C}");
        correct_decode(&[0x88u8, 0x66u8], "\u{00CA}");
        correct_decode(&[0x88u8, 0xA3u8], "\u{00EA}\u{0304}");
        correct_decode(&[0x88u8, 0xA5u8], "\u{00EA}\u{030C}");
        correct_decode(&[0x88u8, 0xA7u8], "\u{00EA}");
        correct_decode(&[0x99u8, 0xD4u8], "\u{8991}");
        correct_decode(&[0x99u8, 0xD5u8], "\u{27967}");
        correct_decode(&[0x99u8, 0xD6u8], "\u{8A29}");

        // Edge cases surrounded with ASCII
        correct_decode(
            &[0x61u8, 0x87u8, 0x40u8, 0x62u8],
            "\u{0061}\u{43F0}\u{0062}",
        );
        correct_decode(
            &[0x61u8, 0xFEu8, 0xFEu8, 0x62u8],
            "\u{0061}\u{79D4}\u{0062}",
        );
        correct_decode(
            &[0x61u8, 0xFEu8, 0xFDu8, 0x62u8],
            "\u{0061}\u{2910D}\u{0062}",
        );
        correct_decode(
            &[0x61u8, 0x88u8, 0x62u8, 0x62u8],
            "\u{0061}\u{00CA}\u{0304}\u{0062}",
        );
        correct_decode(
            &[0x61u8, 0x88u8, 0x64u8, 0x62u8],
            "\u{0061}\u{00CA}\u{030C}\u{0062}",
        );
        correct_decode(
            &[0x61u8, 0x88u8, 0x66u8, 0x62u8],
            "\u{0061}\u{00CA}\u{0062}",
        );
        correct_decode(
            &[0x61u8, 0x88u8, 0xA3u8, 0x62u8],
            "\u{0061}\u{00EA}\u{0304}\u{0062}",
        );
        correct_decode(
            &[0x61u8, 0x88u8, 0xA5u8, 0x62u8],
            "\u{0061}\u{00EA}\u{030C}\u{0062}",
        );
        correct_decode(
            &[0x61u8, 0x88u8, 0xA7u8, 0x62u8],
            "\u{0061}\u{00EA}\u{0062}",
        );
        correct_decode(
            &[0x61u8, 0x99u8, 0xD4u8, 0x62u8],
            "\u{0061}\u{8991}\u{0062}",
        );
        correct_decode(
            &[0x61u8, 0x99u8, 0xD5u8, 0x62u8],
            "\u{0061}\u{27967}\u{0062}",
        );
        correct_decode(
            &[0x61u8, 0x99u8, 0xD6u8, 0x62u8],
            "\u{0061}\u{8A29}\u{0062}",
        );
    }

    #[test]
    fn decode_02() {
        let data = [
            0xA4, 0xB5, 0xA4, 0xE9, 0xC7, 0x56, 0xC6, 0xEA, 0xC6, 0xEA, 0xC7, 0x6F, 0xA1, 0x49,
        ]; // "今日はいいよ！"
        let mut buf = [0u8; 2];
        let (decoded, consumed_count) = decode_to_str(&data, &mut buf, true).unwrap();
        assert_eq!(consumed_count, 0);
        assert_eq!(decoded, "");
    }

    #[test]
    fn decode_03() {
        let data = [
            0xA4, 0xB5, 0xA4, 0xE9, 0xC7, 0x56, 0xC6, 0xEA, 0xC6, 0xEA, 0xC7, 0x6F, 0xA1, 0x49,
        ]; // "今日はいいよ！"
        let mut buf = [0u8; 3];
        let (decoded, consumed_count) = decode_to_str(&data, &mut buf, true).unwrap();
        assert_eq!(consumed_count, 2);
        assert_eq!(decoded, "今");
    }

    #[test]
    fn decode_04() {
        let data = [
            0xA4, 0xB5, 0xA4, 0xE9, 0xC7, 0x56, 0xC6, 0xEA, 0xC6, 0xEA, 0xC7, 0x6F, 0xA1, 0x49,
        ]; // "今日はいいよ！"
        let mut buf = [0u8; 5];
        let (decoded, consumed_count) = decode_to_str(&data, &mut buf, true).unwrap();
        assert_eq!(consumed_count, 2);
        assert_eq!(decoded, "今");
    }

    #[test]
    fn decode_05() {
        let data = [
            0xA4, 0xB5, 0x80, 0x61, 0xC7, 0x56, 0xC6, 0xEA, 0xC6, 0xEA, 0xC7, 0x6F, 0xA1, 0x49,
        ]; // "今日はいいよ！" with an error on the second char (invalid sequence)
        let mut buf = [0u8; 3];
        let (decoded, consumed_count) = decode_to_str(&data, &mut buf, true).unwrap();
        assert_eq!(consumed_count, 2);
        assert_eq!(decoded, "今");
    }

    #[test]
    fn decode_06() {
        let data = [0xA4, 0xB5, 0xA4, 0xE9, 0x61, 0xC7, 0x56, 0x62];
        let mut buf = [0u8; 11];
        let (encoded, consumed_count) = decode_to_str(&data, &mut buf, true).unwrap();
        assert_eq!(consumed_count, 8);
        assert_eq!(encoded, "今日aはb");
    }

    #[test]
    fn decode_07() {
        let data = [
            0xA4, 0xB5, 0xA4, 0xE9, 0xC7, 0x56, 0xC6, 0xEA, 0xC6, 0xEA, 0xC7, 0x6F, 0xA1,
        ]; // "今日はいいよ！" with last byte chopped off.
        let mut buf = [0u8; 64];
        let (decoded, consumed_count) = decode_to_str(&data, &mut buf, false).unwrap();
        assert_eq!(consumed_count, 12);
        assert_eq!(decoded, "今日はいいよ");
    }

    #[test]
    fn decode_error_01() {
        error_decode(&[0x80u8, 0x61u8], (0, 1), 0); // Invalid sequence
        error_decode(&[0xFFu8, 0x61u8], (0, 1), 0); // Invalid sequence
        error_decode(&[0xFEu8, 0x39u8], (0, 1), 0); // Invalid sequence
        error_decode(&[0x87u8, 0x66u8], (0, 1), 0); // Undefined code
        error_decode(&[0x81u8, 0x40u8], (0, 1), 0); // Undefined code

        // Invalid sequence, second byte outside of ascii range.
        error_decode(&[0x81u8, 0xA0u8], (0, 2), 0);

        // Undefined code, second byte outside of ascii range.
        error_decode(&[0x81u8, 0xFEu8], (0, 2), 0);
    }

    #[test]
    fn decode_error_02() {
        let data = [
            0x80, 0x61, 0xA4, 0xE9, 0xC7, 0x56, 0xC6, 0xEA, 0xC6, 0xEA, 0xC7, 0x6F, 0xA1, 0x49,
        ]; // "今日はいいよ！" with an error on the first char (invalid sequence)
        let mut buf = [0u8; 2];
        let error = decode_to_str(&data, &mut buf, true);
        assert_eq!(
            error,
            Err(DecodeError {
                cause: DecodeErrorCause::InvalidData,
                error_range: (0, 1),
                output_bytes_written: 0,
            })
        );
    }

    #[test]
    fn decode_error_03() {
        let data = [
            0xA4, 0xB5, 0x80, 0x61, 0xC7, 0x56, 0xC6, 0xEA, 0xC6, 0xEA, 0xC7, 0x6F, 0xA1, 0x49,
        ]; // "今日はいいよ！" with an error on the second char (invalid sequence)
        let mut buf = [0u8; 4];
        // Scope to contain borrow.
        {
            let error = decode_to_str(&data, &mut buf, true);
            assert_eq!(
                error,
                Err(DecodeError {
                    cause: DecodeErrorCause::InvalidData,
                    error_range: (2, 3),
                    output_bytes_written: 3,
                })
            );
        }
        assert_eq!(&buf[..3], b"\xE4\xBB\x8A");
    }

    #[test]
    fn decode_error_04() {
        let data = [
            0xA4, 0xB5, 0xA4, 0xE9, 0xC7, 0x56, 0x80, 0x61, 0xC6, 0xEA, 0xC7, 0x6F, 0xA1, 0x49,
        ]; // "今日はいいよ！" with an error on the fourth char (invalid sequence)
        let mut buf = [0u8; 64];
        // Scope to contain borrow.
        {
            let error = decode_to_str(&data, &mut buf, true);
            assert_eq!(
                error,
                Err(DecodeError {
                    cause: DecodeErrorCause::InvalidData,
                    error_range: (6, 7),
                    output_bytes_written: 9,
                })
            );
        }
        assert_eq!(&buf[..9], b"\xE4\xBB\x8A\xE6\x97\xA5\xE3\x81\xAF");
    }

    #[test]
    fn decode_error_05() {
        let data = [
            0xA4, 0xB5, 0xA4, 0xE9, 0xC7, 0x56, 0xC6, 0xEA, 0xC6, 0xEA, 0xC7, 0x6F, 0xA1,
        ]; // "今日はいいよ！" with last byte chopped off.
        let mut buf = [0u8; 64];
        // Scope to contain borrow.
        {
            let error = decode_to_str(&data, &mut buf, true);
            assert_eq!(
                error,
                Err(DecodeError {
                    cause: DecodeErrorCause::InvalidData,
                    error_range: (12, 13),
                    output_bytes_written: 18,
                })
            );
        }
        assert_eq!(&buf[..18], "今日はいいよ".as_bytes());
    }

    #[test]
    fn encode_01() {
        let text = "今日はいいよ！";
        let mut buf = [0u8; 1];
        let (encoded, consumed_count) = encode_from_str(text, &mut buf, true).unwrap();
        assert_eq!(consumed_count, 0);
        assert_eq!(encoded, &[]);
    }

    #[test]
    fn encode_02() {
        let text = "今日はいいよ！";
        let mut buf = [0u8; 2];
        let (encoded, consumed_count) = encode_from_str(text, &mut buf, true).unwrap();
        assert_eq!(consumed_count, 3);
        assert_eq!(encoded, &[0xA4, 0xB5]);
    }

    #[test]
    fn encode_03() {
        let text = "今日はいいよ！";
        let mut buf = [0u8; 3];
        let (encoded, consumed_count) = encode_from_str(text, &mut buf, true).unwrap();
        assert_eq!(consumed_count, 3);
        assert_eq!(encoded, &[0xA4, 0xB5]);
    }

    #[test]
    fn encode_04() {
        let text = "今日aはbいいよ！";
        let mut buf = [0u8; 8];
        let (encoded, consumed_count) = encode_from_str(text, &mut buf, true).unwrap();
        assert_eq!(consumed_count, 11);
        assert_eq!(encoded, &[0xA4, 0xB5, 0xA4, 0xE9, 0x61, 0xC7, 0x56, 0x62]);
    }

    #[test]
    fn encode_05() {
        let text = "今日😺はいいよ！";
        let mut buf = [0u8; 4];
        let (encoded, consumed_count) = encode_from_str(text, &mut buf, true).unwrap();
        assert_eq!(consumed_count, 6);
        assert_eq!(encoded, &[0xA4, 0xB5, 0xA4, 0xE9]);
    }

    #[test]
    fn encode_06() {
        let text = "\u{00CA}\u{0304}";
        let mut buf = [0u8; 64];
        let (encoded, consumed_count) = encode_from_str(text, &mut buf, true).unwrap();
        assert_eq!(consumed_count, 4);
        assert_eq!(encoded, &[0x88, 0x62]);
    }

    #[test]
    fn encode_07() {
        let text = "\u{00CA}\u{0304}";
        let mut buf = [0u8; 64];
        let (encoded, consumed_count) = encode_from_str(text, &mut buf, false).unwrap();
        assert_eq!(consumed_count, 4);
        assert_eq!(encoded, &[0x88, 0x62]);
    }

    #[test]
    fn encode_08() {
        let text = "\u{00CA}";
        let mut buf = [0u8; 64];
        let (encoded, consumed_count) = encode_from_str(text, &mut buf, true).unwrap();
        assert_eq!(consumed_count, 2);
        assert_eq!(encoded, &[0x88, 0x66]);
    }

    #[test]
    fn encode_09() {
        let text = "\u{00CA}";
        let mut buf = [0u8; 64];
        let (encoded, consumed_count) = encode_from_str(text, &mut buf, false).unwrap();
        assert_eq!(consumed_count, 0);
        assert_eq!(encoded, &[]);
    }

    #[test]
    fn encode_10() {
        let text = "\u{00CA}よ";
        let mut buf = [0u8; 64];
        let (encoded, consumed_count) = encode_from_str(text, &mut buf, true).unwrap();
        assert_eq!(consumed_count, 5);
        assert_eq!(encoded, &[0x88, 0x66, 0xc7, 0x6f]);
    }

    #[test]
    fn encode_11() {
        let text = "\u{00CA}よ";
        let mut buf = [0u8; 64];
        let (encoded, consumed_count) = encode_from_str(text, &mut buf, false).unwrap();
        assert_eq!(consumed_count, 5);
        assert_eq!(encoded, &[0x88, 0x66, 0xc7, 0x6f]);
    }

    #[test]
    fn encode_error_01() {
        let text = "😺今日はいいよ！";
        let mut buf = [0u8; 64];
        assert_eq!(
            encode_from_str(text, &mut buf, true),
            Err(EncodeError {
                character: '😺',
                error_range: (0, 4),
                output_bytes_written: 0,
            })
        );
    }

    #[test]
    fn encode_error_02() {
        let text = "今日😺はいいよ！";
        let mut buf = [0u8; 64];
        assert_eq!(
            encode_from_str(text, &mut buf, true),
            Err(EncodeError {
                character: '😺',
                error_range: (6, 10),
                output_bytes_written: 4,
            })
        );
        assert_eq!(&buf[..4], &[0xA4, 0xB5, 0xA4, 0xE9]);
    }
}
"##

/-- src/single_byte.rs:1-689 -/
def single_byte : List Text := lines! r##"//! Single byte encodings.
//!
//! So far all of these are Ascii and extensions of Ascii.

use core;
use {DecodeError, DecodeErrorCause, DecodeResult, EncodeError, EncodeResult};

pub mod ascii {
    //! US ASCII.
    use super::*;

    pub fn encode_from_str<'a>(input: &str, out_buffer: &'a mut [u8]) -> EncodeResult<'a> {
        ascii_ext_encode_from_str(&[], input, out_buffer)
    }

    pub fn decode_to_str<'a>(input: &[u8], out_buffer: &'a mut [u8]) -> DecodeResult<'a> {
        ascii_ext_decode_to_str(&['�'; 128], input, out_buffer)
    }
}

pub mod ibm_866 {
    //! IBM code page 866.

    // Generated by:
    // `encoding_tables/single_byte/generate_ascii_ext_tables.py`.
    include!("generated/single_byte/ibm-cp866_tables.rs.inc");
}

pub mod iso_8859_1 {
    //! ISO/IEC 8859-1, also known as Latin-1.
    //!
    //! This encoding maps 1-to-1 to the first 256 unicode scalar values.

    // Generated by:
    // `encoding_tables/single_byte/generate_ascii_ext_tables.py`.
    include!("generated/single_byte/iso-8859-1_tables.rs.inc");
}

pub mod iso_8859_2 {
    //! ISO/IEC 8859-2, also known as Latin-2.

    // Generated by:
    // `encoding_tables/single_byte/generate_ascii_ext_tables.py`.
    include!("generated/single_byte/iso-8859-2_tables.rs.inc");
}

pub mod iso_8859_3 {
    //! ISO/IEC 8859-3, also known as Latin-3.

    // Generated by:
    // `encoding_tables/single_byte/generate_ascii_ext_tables.py`.
    include!("generated/single_byte/iso-8859-3_tables.rs.inc");
}

pub mod iso_8859_4 {
    //! ISO/IEC 8859-4, also known as Latin-4.

    // Generated by:
    // `encoding_tables/single_byte/generate_ascii_ext_tables.py`.
    include!("generated/single_byte/iso-8859-4_tables.rs.inc");
}

pub mod iso_8859_5 {
    //! ISO/IEC 8859-5.

    // Generated by:
    // `encoding_tables/single_byte/generate_ascii_ext_tables.py`.
    include!("generated/single_byte/iso-8859-5_tables.rs.inc");
}

pub mod iso_8859_6 {
    //! ISO/IEC 8859-6.

    // Generated by:
    // `encoding_tables/single_byte/generate_ascii_ext_tables.py`.
    include!("generated/single_byte/iso-8859-6_tables.rs.inc");
}

pub mod iso_8859_7 {
    //! ISO/IEC 8859-7.

    // Generated by:
    // `encoding_tables/single_byte/generate_ascii_ext_tables.py`.
    include!("generated/single_byte/iso-8859-7_tables.rs.inc");
}

pub mod iso_8859_8 {
    //! ISO/IEC 8859-8.

    // Generated by:
    // `encoding_tables/single_byte/generate_ascii_ext_tables.py`.
    include!("generated/single_byte/iso-8859-8_tables.rs.inc");
}

pub mod iso_8859_9 {
    //! ISO/IEC 8859-9.

    // Generated by:
    // `encoding_tables/single_byte/generate_ascii_ext_tables.py`.
    include!("generated/single_byte/iso-8859-9_tables.rs.inc");
}

pub mod iso_8859_10 {
    //! ISO/IEC 8859-10.

    // Generated by:
    // `encoding_tables/single_byte/generate_ascii_ext_tables.py`.
    include!("generated/single_byte/iso-8859-10_tables.rs.inc");
}

pub mod iso_8859_11 {
    //! ISO/IEC 8859-11, also known as TIS-620.
    //!
    //! This is a common one-byte encoding for the Thai language.

    // Generated by:
    // `encoding_tables/single_byte/generate_ascii_ext_tables.py`.
    include!("generated/single_byte/iso-8859-11_tables.rs.inc");
}

pub mod iso_8859_13 {
    //! ISO/IEC 8859-13.

    // Generated by:
    // `encoding_tables/single_byte/generate_ascii_ext_tables.py`.
    include!("generated/single_byte/iso-8859-13_tables.rs.inc");
}

pub mod iso_8859_14 {
    //! ISO/IEC 8859-14.

    // Generated by:
    // `encoding_tables/single_byte/generate_ascii_ext_tables.py`.
    include!("generated/single_byte/iso-8859-14_tables.rs.inc");
}

pub mod iso_8859_15 {
    //! ISO/IEC 8859-15.

    // Generated by:
    // `encoding_tables/single_byte/generate_ascii_ext_tables.py`.
    include!("generated/single_byte/iso-8859-15_tables.rs.inc");
}

pub mod iso_8859_16 {
    //! ISO/IEC 8859-16.

    // Generated by:
    // `encoding_tables/single_byte/generate_ascii_ext_tables.py`.
    include!("generated/single_byte/iso-8859-16_tables.rs.inc");
}

pub mod koi8_r {
    //! KOI8-R.

    // Generated by:
    // `encoding_tables/single_byte/generate_ascii_ext_tables.py`.
    include!("generated/single_byte/koi8-r_tables.rs.inc");
}

pub mod koi8_u {
    //! KOI8-U.

    // Generated by:
    // `encoding_tables/single_byte/generate_ascii_ext_tables.py`.
    include!("generated/single_byte/koi8-u_tables.rs.inc");
}

pub mod mac_roman {
    //! Mac OS Roman, also known as "macintosh".
    //!
    //! The standard text encoding used on classic Mac OS (i.e. prior to Mac OS X).

    // Generated by:
    // `encoding_tables/single_byte/generate_ascii_ext_tables.py`.
    include!("generated/single_byte/mac-roman_tables.rs.inc");
}

pub mod mac_cyrillic {
    //! Mac OS Cyrillic, also known as "x-mac-cyrillic".

    // Generated by:
    // `encoding_tables/single_byte/generate_ascii_ext_tables.py`.
    include!("generated/single_byte/mac-cyrillic_tables.rs.inc");
}

pub mod windows_874 {
    //! Windows code page 874.

    // Generated by:
    // `encoding_tables/single_byte/generate_ascii_ext_tables.py`.
    include!("generated/single_byte/windows-cp874_tables.rs.inc");
}

pub mod windows_1250 {
    //! Windows code page 1250.

    // Generated by:
    // `encoding_tables/single_byte/generate_ascii_ext_tables.py`.
    include!("generated/single_byte/windows-cp1250_tables.rs.inc");
}

pub mod windows_1251 {
    //! Windows code page 1251.

    // Generated by:
    // `encoding_tables/single_byte/generate_ascii_ext_tables.py`.
    include!("generated/single_byte/windows-cp1251_tables.rs.inc");
}

pub mod windows_1252 {
    //! Windows code page 1252.

    // Generated by:
    // `encoding_tables/single_byte/generate_ascii_ext_tables.py`.
    include!("generated/single_byte/windows-cp1252_tables.rs.inc");
}

pub mod windows_1253 {
    //! Windows code page 1253.

    // Generated by:
    // `encoding_tables/single_byte/generate_ascii_ext_tables.py`.
    include!("generated/single_byte/windows-cp1253_tables.rs.inc");
}

pub mod windows_1254 {
    //! Windows code page 1254.

    // Generated by:
    // `encoding_tables/single_byte/generate_ascii_ext_tables.py`.
    include!("generated/single_byte/windows-cp1254_tables.rs.inc");
}

pub mod windows_1255 {
    //! Windows code page 1255.

    // Generated by:
    // `encoding_tables/single_byte/generate_ascii_ext_tables.py`.
    include!("generated/single_byte/windows-cp1255_tables.rs.inc");
}

pub mod windows_1256 {
    //! Windows code page 1256.

    // Generated by:
    // `encoding_tables/single_byte/generate_ascii_ext_tables.py`.
    include!("generated/single_byte/windows-cp1256_tables.rs.inc");
}

pub mod windows_1257 {
    //! Windows code page 1257.

    // Generated by:
    // `encoding_tables/single_byte/generate_ascii_ext_tables.py`.
    include!("generated/single_byte/windows-cp1257_tables.rs.inc");
}

pub mod windows_1258 {
    //! Windows code page 1258.

    // Generated by:
    // `encoding_tables/single_byte/generate_ascii_ext_tables.py`.
    include!("generated/single_byte/windows-cp1258_tables.rs.inc");
}

/// This is shared among the single byte encoders that are strict extensions
/// of ascii.  It is shallowly wrapped in each of their modules.
#[inline]
fn ascii_ext_encode_from_str<'a>(
    table: &[(char, u8)],
    input: &str,
    output: &'a mut [u8],
) -> EncodeResult<'a> {
    // Do the encode.
    let mut input_i = 0;
    let mut output_i = 0;
    for (offset, c) in input.char_indices() {
        if output_i >= output.len() {
            break;
        }
        if c as u32 <= 127 {
            output[output_i] = c as u8;
            output_i += 1;
            input_i = offset + 1;
        } else if let Ok(i) = table.binary_search_by_key(&c, |x| x.0) {
            output[output_i] = table[i].1;
            output_i += 1;
            input_i = offset + 1;
        } else {
            return Err(EncodeError {
                character: c,
                error_range: (offset, offset + c.len_utf8()),
                output_bytes_written: output_i,
            });
        }
    }

    // Calculate how much of the input was consumed.
    if input_i > input.len() {
        input_i = input.len();
    } else {
        while !input.is_char_boundary(input_i) {
            input_i += 1;
        }
    }

    Ok((&output[..output_i], input_i))
}

/// This is shared among the single byte decoders that are strict extensions
/// of ascii.  It is shallowly wrapped in each of their modules.
#[inline]
fn ascii_ext_decode_to_str<'a>(
    table: &[char; 128],
    input: &[u8],
    output: &'a mut [u8],
) -> DecodeResult<'a> {
    let mut input_i = 0;
    let mut output_i = 0;
    for &byte in input.iter() {
        if byte < 0x80 {
            // 1-byte case
            if output_i >= output.len() {
                break;
            }
            output[output_i] = byte;
            input_i += 1;
            output_i += 1;
        } else {
            // Use lookup table.
            let code = table[byte as usize - 0x80];
            if code == '�' {
                // Error: undefined byte.
                return Err(DecodeError {
                    cause: DecodeErrorCause::InvalidData,
                    error_range: (input_i, input_i + 1),
                    output_bytes_written: output_i,
                });
            }
            // Encode to utf8
            let mut buf = [0u8; 4];
            let s = code.encode_utf8(&mut buf);
            if (output_i + s.len()) > output.len() {
                break;
            }
            output[output_i..(output_i + s.len())].copy_from_slice(s.as_bytes());
            input_i += 1;
            output_i += s.len();
        }
    }

    Ok((
        unsafe { core::str::from_utf8_unchecked(&output[..output_i]) },
        input_i,
    ))
}

//===========================================================================

// Most of the testing below is done with iso-8859-7, since it has a few
// undefined characters, allowing us to test handling of those.
#[cfg(test)]
mod tests {
    use super::{iso_8859_7::*, *};
    use {DecodeError, EncodeError};

    #[test]
    fn encode_01() {
        let text = "Hello world!";
        let mut buf = [0u8; 0];
        let (encoded, consumed_count) = encode_from_str(text, &mut buf).unwrap();
        assert_eq!(consumed_count, 0);
        assert_eq!(encoded, &[]);
    }

    #[test]
    fn encode_02() {
        let text = "Hello world!";
        let mut buf = [0u8; 1];
        let (encoded, consumed_count) = encode_from_str(text, &mut buf).unwrap();
        assert_eq!(consumed_count, 1);
        assert_eq!(encoded, "H".as_bytes());
    }

    #[test]
    fn encode_03() {
        let text = "Hello world!";
        let mut buf = [0u8; 2];
        let (encoded, consumed_count) = encode_from_str(text, &mut buf).unwrap();
        assert_eq!(consumed_count, 2);
        assert_eq!(encoded, "He".as_bytes());
    }

    #[test]
    fn encode_04() {
        let text = "Hello world!";
        let mut buf = [0u8; 64];
        let (encoded, consumed_count) = encode_from_str(text, &mut buf).unwrap();
        assert_eq!(consumed_count, 12);
        assert_eq!(encoded, "Hello world!".as_bytes());
    }

    #[test]
    fn encode_05() {
        let text = "Hello world!こ";
        let mut buf = [0u8; 12];
        let (encoded, consumed_count) = encode_from_str(text, &mut buf).unwrap();
        assert_eq!(consumed_count, 12);
        assert_eq!(encoded, "Hello world!".as_bytes());
    }

    #[test]
    fn decode_01() {
        let data = [
            0x48, 0x65, 0x6C, 0x6C, 0x6F, 0x20, 0x77, 0x6F, 0x72, 0x6C, 0x64, 0x21,
        ]; // "Hello world!"
        let mut buf = [0u8; 0];
        let (decoded, consumed_count) = decode_to_str(&data, &mut buf).unwrap();
        assert_eq!(consumed_count, 0);
        assert_eq!(decoded, "");
    }

    #[test]
    fn decode_02() {
        let data = [
            0x48, 0x65, 0x6C, 0x6C, 0x6F, 0x20, 0x77, 0x6F, 0x72, 0x6C, 0x64, 0x21,
        ]; // "Hello world!"
        let mut buf = [0u8; 1];
        let (decoded, consumed_count) = decode_to_str(&data, &mut buf).unwrap();
        assert_eq!(consumed_count, 1);
        assert_eq!(decoded, "H");
    }

    #[test]
    fn decode_03() {
        let data = [
            0x48, 0x65, 0x6C, 0x6C, 0x6F, 0x20, 0x77, 0x6F, 0x72, 0x6C, 0x64, 0x21,
        ]; // "Hello world!"
        let mut buf = [0u8; 2];
        let (decoded, consumed_count) = decode_to_str(&data, &mut buf).unwrap();
        assert_eq!(consumed_count, 2);
        assert_eq!(decoded, "He");
    }

    #[test]
    fn decode_04() {
        let data = [
            0x48, 0x65, 0x6C, 0x6C, 0x6F, 0x20, 0x77, 0x6F, 0x72, 0x6C, 0x64, 0x21,
        ]; // "Hello world!"
        let mut buf = [0u8; 64];
        let (decoded, consumed_count) = decode_to_str(&data, &mut buf).unwrap();
        assert_eq!(consumed_count, 12);
        assert_eq!(decoded, "Hello world!");
    }

    #[test]
    fn decode_05() {
        let data = [
            0xC1, 0xC2, 0xC3, 0xC4, 0xC5, 0xC6, 0xC7, 0xC8, 0xC9, 0xCA, 0xCB, 0xCC, 0xCD, 0xCE,
            0xCF, 0xD0, 0xD1, 0xD3, 0xD4, 0xD5, 0xD6, 0xD7, 0xD8, 0xD9,
        ]; // "ΑΒΓΔΕΖΗΘΙΚΛΜΝΞΟΠΡΣΤΥΦΧΨΩ"
        let mut buf = [0u8; 128];
        let (decoded, consumed_count) = decode_to_str(&data, &mut buf).unwrap();
        assert_eq!(consumed_count, 24);
        assert_eq!(decoded, "ΑΒΓΔΕΖΗΘΙΚΛΜΝΞΟΠΡΣΤΥΦΧΨΩ");
    }

    #[test]
    fn encode_error_01() {
        let text = "こello world!";
        let mut buf = [0u8; 64];
        assert_eq!(
            encode_from_str(text, &mut buf),
            Err(EncodeError {
                character: 'こ',
                error_range: (0, 3),
                output_bytes_written: 0,
            })
        );
    }

    #[test]
    fn encode_error_02() {
        let text = "\u{00C0}ello world!";
        let mut buf = [0u8; 64];
        assert_eq!(
            encode_from_str(text, &mut buf),
            Err(EncodeError {
                character: '\u{00C0}',
                error_range: (0, 2),
                output_bytes_written: 0,
            })
        );
    }

    #[test]
    fn encode_error_03() {
        let text = "Hこllo world!";
        let mut buf = [0u8; 64];
        assert_eq!(
            encode_from_str(text, &mut buf),
            Err(EncodeError {
                character: 'こ',
                error_range: (1, 4),
                output_bytes_written: 1,
            })
        );
    }

    #[test]
    fn encode_error_04() {
        let text = "H\u{00C0}llo world!";
        let mut buf = [0u8; 64];
        assert_eq!(
            encode_from_str(text, &mut buf),
            Err(EncodeError {
                character: '\u{00C0}',
                error_range: (1, 3),
                output_bytes_written: 1,
            })
        );
    }

    #[test]
    fn encode_error_05() {
        let text = "Heこlo world!";
        let mut buf = [0u8; 3];
        assert_eq!(
            encode_from_str(text, &mut buf),
            Err(EncodeError {
                character: 'こ',
                error_range: (2, 5),
                output_bytes_written: 2,
            })
        );
    }

    #[test]
    fn encode_error_06() {
        let text = "He\u{00C0}lo world!";
        let mut buf = [0u8; 3];
        assert_eq!(
            encode_from_str(text, &mut buf),
            Err(EncodeError {
                character: '\u{00C0}',
                error_range: (2, 4),
                output_bytes_written: 2,
            })
        );
    }

    #[test]
    fn decode_error_01() {
        let data = [
            0x48, 0xAE, 0x6C, 0x6C, 0x6F, 0x20, 0x77, 0x6F, 0x72, 0x6C, 0x64, 0x21,
        ]; // "Hello world!" with an error on the second byte (undefined byte).
        let mut buf = [0u8; 64];
        let error = decode_to_str(&data, &mut buf);
        assert_eq!(
            error,
            Err(DecodeError {
                cause: DecodeErrorCause::InvalidData,
                error_range: (1, 2),
                output_bytes_written: 1,
            })
        );
    }

    #[test]
    fn decode_error_02() {
        let data = [
            0x48, 0xD2, 0x6C, 0x6C, 0x6F, 0x20, 0x77, 0x6F, 0x72, 0x6C, 0x64, 0x21,
        ]; // "Hello world!" with an error on the second byte (undefined byte).
        let mut buf = [0u8; 64];
        let error = decode_to_str(&data, &mut buf);
        assert_eq!(
            error,
            Err(DecodeError {
                cause: DecodeErrorCause::InvalidData,
                error_range: (1, 2),
                output_bytes_written: 1,
            })
        );
    }

    #[test]
    fn decode_error_03() {
        let data = [
            0x48, 0xFF, 0x6C, 0x6C, 0x6F, 0x20, 0x77, 0x6F, 0x72, 0x6C, 0x64, 0x21,
        ]; // "Hello world!" with an error on the second byte (undefined byte).
        let mut buf = [0u8; 64];
        let error = decode_to_str(&data, &mut buf);
        assert_eq!(
            error,
            Err(DecodeError {
                cause: DecodeErrorCause::InvalidData,
                error_range: (1, 2),
                output_bytes_written: 1,
            })
        );
    }

    #[test]
    fn ascii_encode_error_01() {
        let text = "\u{0080}ello world!";
        let mut buf = [0u8; 64];
        assert_eq!(
            ascii::encode_from_str(text, &mut buf),
            Err(EncodeError {
                character: '\u{0080}',
                error_range: (0, 2),
                output_bytes_written: 0,
            })
        );
    }

    #[test]
    fn ascii_encode_error_02() {
        let text = "\u{00FF}ello world!";
        let mut buf = [0u8; 64];
        assert_eq!(
            ascii::encode_from_str(text, &mut buf),
            Err(EncodeError {
                character: '\u{00FF}',
                error_range: (0, 2),
                output_bytes_written: 0,
            })
        );
    }

    #[test]
    fn ascii_decode_error_01() {
        let data = [
            0x48, 0x80, 0x6C, 0x6C, 0x6F, 0x20, 0x77, 0x6F, 0x72, 0x6C, 0x64, 0x21,
        ]; // "Hello world!" with an error on the second byte (undefined byte).
        let mut buf = [0u8; 64];
        let error = ascii::decode_to_str(&data, &mut buf);
        assert_eq!(
            error,
            Err(DecodeError {
                cause: DecodeErrorCause::InvalidData,
                error_range: (1, 2),
                output_bytes_written: 1,
            })
        );
    }

    #[test]
    fn ascii_decode_error_02() {
        let data = [
            0x48, 0xFF, 0x6C, 0x6C, 0x6F, 0x20, 0x77, 0x6F, 0x72, 0x6C, 0x64, 0x21,
        ]; // "Hello world!" with an error on the second byte (undefined byte).
        let mut buf = [0u8; 64];
        let error = ascii::decode_to_str(&data, &mut buf);
        assert_eq!(
            error,
            Err(DecodeError {
                cause: DecodeErrorCause::InvalidData,
                error_range: (1, 2),
                output_bytes_written: 1,
            })
        );
    }

    #[test]
    fn encode_latin1_01() {
        let mut buf = [0u8; 64];
        // Make sure all the allowed code points encode correctly.
        for i in 0..=255u8 {
            let (encoded, consumed_count) =
                iso_8859_1::encode_from_str((i as char).encode_utf8(&mut [0u8; 4]), &mut buf)
                    .unwrap();
            assert_eq!(consumed_count, (i as char).len_utf8());
            assert_eq!(encoded, &[i]);
        }
    }

    #[test]
    fn decode_latin1_01() {
        let mut buf = [0u8; 64];
        // Make sure all the allowed code points encode correctly.
        for i in 0..=255u8 {
            let (encoded, consumed_count) = iso_8859_1::decode_to_str(&[i], &mut buf).unwrap();
            assert_eq!(consumed_count, 1);
            assert_eq!(encoded, (i as char).encode_utf8(&mut [0u8; 4]));
        }
    }
}
"##

/-- examples/wrapper.rs:1-160 -/
def wrapper : List Text := lines! r##"extern crate text_encoding;

use text_encoding::{single_byte::*, *};

fn main() {
    let text = "Hello world!";

    let mut buf = [0u8; 100];
    let utf16 = encode_from_str(Encoding::Utf16BE, text, &mut buf, true)
        .unwrap()
        .0;

    let mut buf_2 = [0u8; 100];
    let text_2 = decode_to_str(Encoding::Utf16BE, utf16, &mut buf_2, true)
        .unwrap()
        .0;

    assert_eq!(text, text_2);
}

/// Describes a text encoding.
#[derive(Debug, Copy, Clone)]
pub enum Encoding {
    Utf8,
    Utf16BE,
    Utf16LE,
    Utf32BE,
    Utf32LE,
    Big5WHATWG,     // BIG5, WHATWG variant
    ShiftJISWHATWG, // Shift JIS, WHATWG variant
    Ascii,          // US Ascii
    Ibm866,         // IBM 866
    Iso8859_1,      // ISO/IEC 8859-1, Latin1
    Iso8859_2,      // ISO/IEC 8859-2, Latin2
    Iso8859_3,      // ISO/IEC 8859-3, Latin3
    Iso8859_4,      // ISO/IEC 8859-4, Latin4
    Iso8859_5,      // ISO/IEC 8859-5
    Iso8859_6,      // ISO/IEC 8859-6
    Iso8859_7,      // ISO/IEC 8859-7
    Iso8859_8,      // ISO/IEC 8859-8
    Iso8859_9,      // ISO/IEC 8859-9
    Iso8859_10,     // ISO/IEC 8859-10
    Iso8859_11,     // ISO/IEC 8859-11, also called TIS-620
    Iso8859_13,     // ISO/IEC 8859-13
    Iso8859_14,     // ISO/IEC 8859-14
    Iso8859_15,     // ISO/IEC 8859-15
    Iso8859_16,     // ISO/IEC 8859-16
    Koi8R,          // KOI8-R
    Koi8U,          // KOI8-U
    Macintosh,      // Macintosh
    MacCyrillic,    // x-max-cyrillic
    Windows874,     // Windows code page 874
    Windows1250,    // Windows code page 1250
    Windows1251,    // Windows code page 1251
    Windows1252,    // Windows code page 1252
    Windows1253,    // Windows code page 1253
    Windows1254,    // Windows code page 1254
    Windows1255,    // Windows code page 1255
    Windows1256,    // Windows code page 1256
    Windows1257,    // Windows code page 1257
    Windows1258,    // Windows code page 1258
}

/// Encodes text from utf8 to a destination encoding.
pub fn encode_from_str<'a>(
    output_encoding: Encoding,
    input: &str,
    output: &'a mut [u8],
    is_end: bool,
) -> EncodeResult<'a> {
    match output_encoding {
        Encoding::Utf8 => utf8::encode_from_str(input, output),
        Encoding::Utf16BE => utf16_be::encode_from_str(input, output),
        Encoding::Utf16LE => utf16_le::encode_from_str(input, output),
        Encoding::Utf32BE => utf32_be::encode_from_str(input, output),
        Encoding::Utf32LE => utf32_le::encode_from_str(input, output),
        Encoding::Big5WHATWG => big5_whatwg::encode_from_str(input, output, is_end),
        Encoding::ShiftJISWHATWG => shiftjis_whatwg::encode_from_str(input, output),
        Encoding::Ascii => ascii::encode_from_str(input, output),
        Encoding::Ibm866 => ibm_866::encode_from_str(input, output),
        Encoding::Iso8859_1 => iso_8859_1::encode_from_str(input, output),
        Encoding::Iso8859_2 => iso_8859_2::encode_from_str(input, output),
        Encoding::Iso8859_3 => iso_8859_3::encode_from_str(input, output),
        Encoding::Iso8859_4 => iso_8859_4::encode_from_str(input, output),
        Encoding::Iso8859_5 => iso_8859_5::encode_from_str(input, output),
        Encoding::Iso8859_6 => iso_8859_6::encode_from_str(input, output),
        Encoding::Iso8859_7 => iso_8859_7::encode_from_str(input, output),
        Encoding::Iso8859_8 => iso_8859_8::encode_from_str(input, output),
        Encoding::Iso8859_9 => iso_8859_9::encode_from_str(input, output),
        Encoding::Iso8859_10 => iso_8859_10::encode_from_str(input, output),
        Encoding::Iso8859_11 => iso_8859_11::encode_from_str(input, output),
        Encoding::Iso8859_13 => iso_8859_13::encode_from_str(input, output),
        Encoding::Iso8859_14 => iso_8859_14::encode_from_str(input, output),
        Encoding::Iso8859_15 => iso_8859_15::encode_from_str(input, output),
        Encoding::Iso8859_16 => iso_8859_16::encode_from_str(input, output),
        Encoding::Koi8R => koi8_r::encode_from_str(input, output),
        Encoding::Koi8U => koi8_u::encode_from_str(input, output),
        Encoding::Macintosh => mac_roman::encode_from_str(input, output),
        Encoding::MacCyrillic => mac_cyrillic::encode_from_str(input, output),
        Encoding::Windows874 => windows_874::encode_from_str(input, output),
        Encoding::Windows1250 => windows_1250::encode_from_str(input, output),
        Encoding::Windows1251 => windows_1251::encode_from_str(input, output),
        Encoding::Windows1252 => windows_1252::encode_from_str(input, output),
        Encoding::Windows1253 => windows_1253::encode_from_str(input, output),
        Encoding::Windows1254 => windows_1254::encode_from_str(input, output),
        Encoding::Windows1255 => windows_1255::encode_from_str(input, output),
        Encoding::Windows1256 => windows_1256::encode_from_str(input, output),
        Encoding::Windows1257 => windows_1257::encode_from_str(input, output),
        Encoding::Windows1258 => windows_1258::encode_from_str(input, output),
    }
}

/// Decodes text from a source encoding to utf8.
pub fn decode_to_str<'a>(
    input_encoding: Encoding,
    input: &[u8],
    output: &'a mut [u8],
    is_end: bool,
) -> DecodeResult<'a> {
    match input_encoding {
        Encoding::Utf8 => utf8::decode_to_str(input, output, is_end),
        Encoding::Utf16BE => utf16_be::decode_to_str(input, output, is_end),
        Encoding::Utf16LE => utf16_le::decode_to_str(input, output, is_end),
        Encoding::Utf32BE => utf32_be::decode_to_str(input, output, is_end),
        Encoding::Utf32LE => utf32_le::decode_to_str(input, output, is_end),
        Encoding::Big5WHATWG => big5_whatwg::decode_to_str(input, output, is_end),
        Encoding::ShiftJISWHATWG => shiftjis_whatwg::decode_to_str(input, output, is_end),
        Encoding::Ascii => ascii::decode_to_str(input, output),
        Encoding::Ibm866 => ibm_866::decode_to_str(input, output),
        Encoding::Iso8859_1 => iso_8859_1::decode_to_str(input, output),
        Encoding::Iso8859_2 => iso_8859_2::decode_to_str(input, output),
        Encoding::Iso8859_3 => iso_8859_3::decode_to_str(input, output),
        Encoding::Iso8859_4 => iso_8859_4::decode_to_str(input, output),
        Encoding::Iso8859_5 => iso_8859_5::decode_to_str(input, output),
        Encoding::Iso8859_6 => iso_8859_6::decode_to_str(input, output),
        Encoding::Iso8859_7 => iso_8859_7::decode_to_str(input, output),
        Encoding::Iso8859_8 => iso_8859_8::decode_to_str(input, output),
        Encoding::Iso8859_9 => iso_8859_9::decode_to_str(input, output),
        Encoding::Iso8859_10 => iso_8859_10::decode_to_str(input, output),
        Encoding::Iso8859_11 => iso_8859_11::decode_to_str(input, output),
        Encoding::Iso8859_13 => iso_8859_13::decode_to_str(input, output),
        Encoding::Iso8859_14 => iso_8859_14::decode_to_str(input, output),
        Encoding::Iso8859_15 => iso_8859_15::decode_to_str(input, output),
        Encoding::Iso8859_16 => iso_8859_16::decode_to_str(input, output),
        Encoding::Koi8R => koi8_r::decode_to_str(input, output),
        Encoding::Koi8U => koi8_u::decode_to_str(input, output),
        Encoding::Macintosh => mac_roman::decode_to_str(input, output),
        Encoding::MacCyrillic => mac_cyrillic::decode_to_str(input, output),
        Encoding::Windows874 => windows_874::decode_to_str(input, output),
        Encoding::Windows1250 => windows_1250::decode_to_str(input, output),
        Encoding::Windows1251 => windows_1251::decode_to_str(input, output),
        Encoding::Windows1252 => windows_1252::decode_to_str(input, output),
        Encoding::Windows1253 => windows_1253::decode_to_str(input, output),
        Encoding::Windows1254 => windows_1254::decode_to_str(input, output),
        Encoding::Windows1255 => windows_1255::decode_to_str(input, output),
        Encoding::Windows1256 => windows_1256::decode_to_str(input, output),
        Encoding::Windows1257 => windows_1257::decode_to_str(input, output),
        Encoding::Windows1258 => windows_1258::decode_to_str(input, output),
    }
}
"##

end Verif.Files.Src
