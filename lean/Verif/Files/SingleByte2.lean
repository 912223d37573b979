import Verif.Text

/-! Generated by tools/gen_files.py: verbatim copies of files of /repo. -/

namespace Verif.Files

/-- encoding_tables/single_byte/ascii_ext/iso-8859-10.txt:1-292 -/
noncomputable def iso_8859_10_mapping : List Text := lines! r#"# 8859-10.TXT
# Date: 2015-12-02 21:53:00 GMT [KW]
# © 2015 Unicode®, Inc.
# For terms of use, see http://www.unicode.org/terms_of_use.html
#
#	Name:             ISO/IEC 8859-10:1998 to Unicode
#	Unicode version:  3.0
#	Table version:    2.0
#	Table format:     Format A
#	Date:             1999 October 11 (header updated: 2015 December 02)
#	Authors:          Ken Whistler <ken@unicode.org>
#
#	General notes:
#
#	This table contains the data the Unicode Consortium has on how
#       ISO/IEC 8859-10:1998 characters map into Unicode.
#
#	Format:  Three tab-separated columns
#		 Column #1 is the ISO/IEC 8859-10 code (in hex as 0xXX)
#		 Column #2 is the Unicode (in hex as 0xXXXX)
#		 Column #3 the Unicode name (follows a comment sign, '#')
#
#	The entries are in ISO/IEC 8859-10 order.
#
#	Version history
#	1.0 version new.
#   1.1 corrected mistake in mapping of 0xA4
#   2.0 version: updates to copyright notice and terms of use; no
#       changes to character mappings
#
#	Updated versions of this file may be found in:
#		http://www.unicode.org/Public/MAPPINGS/
#
#	Any comments or problems, contact us at:
#       http://www.unicode.org/reporting.html
#
0x00	0x0000	#	NULL
0x01	0x0001	#	START OF HEADING
0x02	0x0002	#	START OF TEXT
0x03	0x0003	#	END OF TEXT
0x04	0x0004	#	END OF TRANSMISSION
0x05	0x0005	#	ENQUIRY
0x06	0x0006	#	ACKNOWLEDGE
0x07	0x0007	#	BELL
0x08	0x0008	#	BACKSPACE
0x09	0x0009	#	HORIZONTAL TABULATION
0x0A	0x000A	#	LINE FEED
0x0B	0x000B	#	VERTICAL TABULATION
0x0C	0x000C	#	FORM FEED
0x0D	0x000D	#	CARRIAGE RETURN
0x0E	0x000E	#	SHIFT OUT
0x0F	0x000F	#	SHIFT IN
0x10	0x0010	#	DATA LINK ESCAPE
0x11	0x0011	#	DEVICE CONTROL ONE
0x12	0x0012	#	DEVICE CONTROL TWO
0x13	0x0013	#	DEVICE CONTROL THREE
0x14	0x0014	#	DEVICE CONTROL FOUR
0x15	0x0015	#	NEGATIVE ACKNOWLEDGE
0x16	0x0016	#	SYNCHRONOUS IDLE
0x17	0x0017	#	END OF TRANSMISSION BLOCK
0x18	0x0018	#	CANCEL
0x19	0x0019	#	END OF MEDIUM
0x1A	0x001A	#	SUBSTITUTE
0x1B	0x001B	#	ESCAPE
0x1C	0x001C	#	FILE SEPARATOR
0x1D	0x001D	#	GROUP SEPARATOR
0x1E	0x001E	#	RECORD SEPARATOR
0x1F	0x001F	#	UNIT SEPARATOR
0x20	0x0020	#	SPACE
0x21	0x0021	#	EXCLAMATION MARK
0x22	0x0022	#	QUOTATION MARK
0x23	0x0023	#	NUMBER SIGN
0x24	0x0024	#	DOLLAR SIGN
0x25	0x0025	#	PERCENT SIGN
0x26	0x0026	#	AMPERSAND
0x27	0x0027	#	APOSTROPHE
0x28	0x0028	#	LEFT PARENTHESIS
0x29	0x0029	#	RIGHT PARENTHESIS
0x2A	0x002A	#	ASTERISK
0x2B	0x002B	#	PLUS SIGN
0x2C	0x002C	#	COMMA
0x2D	0x002D	#	HYPHEN-MINUS
0x2E	0x002E	#	FULL STOP
0x2F	0x002F	#	SOLIDUS
0x30	0x0030	#	DIGIT ZERO
0x31	0x0031	#	DIGIT ONE
0x32	0x0032	#	DIGIT TWO
0x33	0x0033	#	DIGIT THREE
0x34	0x0034	#	DIGIT FOUR
0x35	0x0035	#	DIGIT FIVE
0x36	0x0036	#	DIGIT SIX
0x37	0x0037	#	DIGIT SEVEN
0x38	0x0038	#	DIGIT EIGHT
0x39	0x0039	#	DIGIT NINE
0x3A	0x003A	#	COLON
0x3B	0x003B	#	SEMICOLON
0x3C	0x003C	#	LESS-THAN SIGN
0x3D	0x003D	#	EQUALS SIGN
0x3E	0x003E	#	GREATER-THAN SIGN
0x3F	0x003F	#	QUESTION MARK
0x40	0x0040	#	COMMERCIAL AT
0x41	0x0041	#	LATIN CAPITAL LETTER A
0x42	0x0042	#	LATIN CAPITAL LETTER B
0x43	0x0043	#	LATIN CAPITAL LETTER C
0x44	0x0044	#	LATIN CAPITAL LETTER D
0x45	0x0045	#	LATIN CAPITAL LETTER E
0x46	0x0046	#	LATIN CAPITAL LETTER F
0x47	0x0047	#	LATIN CAPITAL LETTER G
0x48	0x0048	#	LATIN CAPITAL LETTER H
0x49	0x0049	#	LATIN CAPITAL LETTER I
0x4A	0x004A	#	LATIN CAPITAL LETTER J
0x4B	0x004B	#	LATIN CAPITAL LETTER K
0x4C	0x004C	#	LATIN CAPITAL LETTER L
0x4D	0x004D	#	LATIN CAPITAL LETTER M
0x4E	0x004E	#	LATIN CAPITAL LETTER N
0x4F	0x004F	#	LATIN CAPITAL LETTER O
0x50	0x0050	#	LATIN CAPITAL LETTER P
0x51	0x0051	#	LATIN CAPITAL LETTER Q
0x52	0x0052	#	LATIN CAPITAL LETTER R
0x53	0x0053	#	LATIN CAPITAL LETTER S
0x54	0x0054	#	LATIN CAPITAL LETTER T
0x55	0x0055	#	LATIN CAPITAL LETTER U
0x56	0x0056	#	LATIN CAPITAL LETTER V
0x57	0x0057	#	LATIN CAPITAL LETTER W
0x58	0x0058	#	LATIN CAPITAL LETTER X
0x59	0x0059	#	LATIN CAPITAL LETTER Y
0x5A	0x005A	#	LATIN CAPITAL LETTER Z
0x5B	0x005B	#	LEFT SQUARE BRACKET
0x5C	0x005C	#	REVERSE SOLIDUS
0x5D	0x005D	#	RIGHT SQUARE BRACKET
0x5E	0x005E	#	CIRCUMFLEX ACCENT
0x5F	0x005F	#	LOW LINE
0x60	0x0060	#	GRAVE ACCENT
0x61	0x0061	#	LATIN SMALL LETTER A
0x62	0x0062	#	LATIN SMALL LETTER B
0x63	0x0063	#	LATIN SMALL LETTER C
0x64	0x0064	#	LATIN SMALL LETTER D
0x65	0x0065	#	LATIN SMALL LETTER E
0x66	0x0066	#	LATIN SMALL LETTER F
0x67	0x0067	#	LATIN SMALL LETTER G
0x68	0x0068	#	LATIN SMALL LETTER H
0x69	0x0069	#	LATIN SMALL LETTER I
0x6A	0x006A	#	LATIN SMALL LETTER J
0x6B	0x006B	#	LATIN SMALL LETTER K
0x6C	0x006C	#	LATIN SMALL LETTER L
0x6D	0x006D	#	LATIN SMALL LETTER M
0x6E	0x006E	#	LATIN SMALL LETTER N
0x6F	0x006F	#	LATIN SMALL LETTER O
0x70	0x0070	#	LATIN SMALL LETTER P
0x71	0x0071	#	LATIN SMALL LETTER Q
0x72	0x0072	#	LATIN SMALL LETTER R
0x73	0x0073	#	LATIN SMALL LETTER S
0x74	0x0074	#	LATIN SMALL LETTER T
0x75	0x0075	#	LATIN SMALL LETTER U
0x76	0x0076	#	LATIN SMALL LETTER V
0x77	0x0077	#	LATIN SMALL LETTER W
0x78	0x0078	#	LATIN SMALL LETTER X
0x79	0x0079	#	LATIN SMALL LETTER Y
0x7A	0x007A	#	LATIN SMALL LETTER Z
0x7B	0x007B	#	LEFT CURLY BRACKET
0x7C	0x007C	#	VERTICAL LINE
0x7D	0x007D	#	RIGHT CURLY BRACKET
0x7E	0x007E	#	TILDE
0x7F	0x007F	#	DELETE
0x80	0x0080	#	<control>
0x81	0x0081	#	<control>
0x82	0x0082	#	<control>
0x83	0x0083	#	<control>
0x84	0x0084	#	<control>
0x85	0x0085	#	<control>
0x86	0x0086	#	<control>
0x87	0x0087	#	<control>
0x88	0x0088	#	<control>
0x89	0x0089	#	<control>
0x8A	0x008A	#	<control>
0x8B	0x008B	#	<control>
0x8C	0x008C	#	<control>
0x8D	0x008D	#	<control>
0x8E	0x008E	#	<control>
0x8F	0x008F	#	<control>
0x90	0x0090	#	<control>
0x91	0x0091	#	<control>
0x92	0x0092	#	<control>
0x93	0x0093	#	<control>
0x94	0x0094	#	<control>
0x95	0x0095	#	<control>
0x96	0x0096	#	<control>
0x97	0x0097	#	<control>
0x98	0x0098	#	<control>
0x99	0x0099	#	<control>
0x9A	0x009A	#	<control>
0x9B	0x009B	#	<control>
0x9C	0x009C	#	<control>
0x9D	0x009D	#	<control>
0x9E	0x009E	#	<control>
0x9F	0x009F	#	<control>
0xA0	0x00A0	#	NO-BREAK SPACE
0xA1	0x0104	#	LATIN CAPITAL LETTER A WITH OGONEK
0xA2	0x0112	#	LATIN CAPITAL LETTER E WITH MACRON
0xA3	0x0122	#	LATIN CAPITAL LETTER G WITH CEDILLA
0xA4	0x012A	#	LATIN CAPITAL LETTER I WITH MACRON
0xA5	0x0128	#	LATIN CAPITAL LETTER I WITH TILDE
0xA6	0x0136	#	LATIN CAPITAL LETTER K WITH CEDILLA
0xA7	0x00A7	#	SECTION SIGN
0xA8	0x013B	#	LATIN CAPITAL LETTER L WITH CEDILLA
0xA9	0x0110	#	LATIN CAPITAL LETTER D WITH STROKE
0xAA	0x0160	#	LATIN CAPITAL LETTER S WITH CARON
0xAB	0x0166	#	LATIN CAPITAL LETTER T WITH STROKE
0xAC	0x017D	#	LATIN CAPITAL LETTER Z WITH CARON
0xAD	0x00AD	#	SOFT HYPHEN
0xAE	0x016A	#	LATIN CAPITAL LETTER U WITH MACRON
0xAF	0x014A	#	LATIN CAPITAL LETTER ENG
0xB0	0x00B0	#	DEGREE SIGN
0xB1	0x0105	#	LATIN SMALL LETTER A WITH OGONEK
0xB2	0x0113	#	LATIN SMALL LETTER E WITH MACRON
0xB3	0x0123	#	LATIN SMALL LETTER G WITH CEDILLA
0xB4	0x012B	#	LATIN SMALL LETTER I WITH MACRON
0xB5	0x0129	#	LATIN SMALL LETTER I WITH TILDE
0xB6	0x0137	#	LATIN SMALL LETTER K WITH CEDILLA
0xB7	0x00B7	#	MIDDLE DOT
0xB8	0x013C	#	LATIN SMALL LETTER L WITH CEDILLA
0xB9	0x0111	#	LATIN SMALL LETTER D WITH STROKE
0xBA	0x0161	#	LATIN SMALL LETTER S WITH CARON
0xBB	0x0167	#	LATIN SMALL LETTER T WITH STROKE
0xBC	0x017E	#	LATIN SMALL LETTER Z WITH CARON
0xBD	0x2015	#	HORIZONTAL BAR
0xBE	0x016B	#	LATIN SMALL LETTER U WITH MACRON
0xBF	0x014B	#	LATIN SMALL LETTER ENG
0xC0	0x0100	#	LATIN CAPITAL LETTER A WITH MACRON
0xC1	0x00C1	#	LATIN CAPITAL LETTER A WITH ACUTE
0xC2	0x00C2	#	LATIN CAPITAL LETTER A WITH CIRCUMFLEX
0xC3	0x00C3	#	LATIN CAPITAL LETTER A WITH TILDE
0xC4	0x00C4	#	LATIN CAPITAL LETTER A WITH DIAERESIS
0xC5	0x00C5	#	LATIN CAPITAL LETTER A WITH RING ABOVE
0xC6	0x00C6	#	LATIN CAPITAL LETTER AE
0xC7	0x012E	#	LATIN CAPITAL LETTER I WITH OGONEK
0xC8	0x010C	#	LATIN CAPITAL LETTER C WITH CARON
0xC9	0x00C9	#	LATIN CAPITAL LETTER E WITH ACUTE
0xCA	0x0118	#	LATIN CAPITAL LETTER E WITH OGONEK
0xCB	0x00CB	#	LATIN CAPITAL LETTER E WITH DIAERESIS
0xCC	0x0116	#	LATIN CAPITAL LETTER E WITH DOT ABOVE
0xCD	0x00CD	#	LATIN CAPITAL LETTER I WITH ACUTE
0xCE	0x00CE	#	LATIN CAPITAL LETTER I WITH CIRCUMFLEX
0xCF	0x00CF	#	LATIN CAPITAL LETTER I WITH DIAERESIS
0xD0	0x00D0	#	LATIN CAPITAL LETTER ETH (Icelandic)
0xD1	0x0145	#	LATIN CAPITAL LETTER N WITH CEDILLA
0xD2	0x014C	#	LATIN CAPITAL LETTER O WITH MACRON
0xD3	0x00D3	#	LATIN CAPITAL LETTER O WITH ACUTE
0xD4	0x00D4	#	LATIN CAPITAL LETTER O WITH CIRCUMFLEX
0xD5	0x00D5	#	LATIN CAPITAL LETTER O WITH TILDE
0xD6	0x00D6	#	LATIN CAPITAL LETTER O WITH DIAERESIS
0xD7	0x0168	#	LATIN CAPITAL LETTER U WITH TILDE
0xD8	0x00D8	#	LATIN CAPITAL LETTER O WITH STROKE
0xD9	0x0172	#	LATIN CAPITAL LETTER U WITH OGONEK
0xDA	0x00DA	#	LATIN CAPITAL LETTER U WITH ACUTE
0xDB	0x00DB	#	LATIN CAPITAL LETTER U WITH CIRCUMFLEX
0xDC	0x00DC	#	LATIN CAPITAL LETTER U WITH DIAERESIS
0xDD	0x00DD	#	LATIN CAPITAL LETTER Y WITH ACUTE
0xDE	0x00DE	#	LATIN CAPITAL LETTER THORN (Icelandic)
0xDF	0x00DF	#	LATIN SMALL LETTER SHARP S (German)
0xE0	0x0101	#	LATIN SMALL LETTER A WITH MACRON
0xE1	0x00E1	#	LATIN SMALL LETTER A WITH ACUTE
0xE2	0x00E2	#	LATIN SMALL LETTER A WITH CIRCUMFLEX
0xE3	0x00E3	#	LATIN SMALL LETTER A WITH TILDE
0xE4	0x00E4	#	LATIN SMALL LETTER A WITH DIAERESIS
0xE5	0x00E5	#	LATIN SMALL LETTER A WITH RING ABOVE
0xE6	0x00E6	#	LATIN SMALL LETTER AE
0xE7	0x012F	#	LATIN SMALL LETTER I WITH OGONEK
0xE8	0x010D	#	LATIN SMALL LETTER C WITH CARON
0xE9	0x00E9	#	LATIN SMALL LETTER E WITH ACUTE
0xEA	0x0119	#	LATIN SMALL LETTER E WITH OGONEK
0xEB	0x00EB	#	LATIN SMALL LETTER E WITH DIAERESIS
0xEC	0x0117	#	LATIN SMALL LETTER E WITH DOT ABOVE
0xED	0x00ED	#	LATIN SMALL LETTER I WITH ACUTE
0xEE	0x00EE	#	LATIN SMALL LETTER I WITH CIRCUMFLEX
0xEF	0x00EF	#	LATIN SMALL LETTER I WITH DIAERESIS
0xF0	0x00F0	#	LATIN SMALL LETTER ETH (Icelandic)
0xF1	0x0146	#	LATIN SMALL LETTER N WITH CEDILLA
0xF2	0x014D	#	LATIN SMALL LETTER O WITH MACRON
0xF3	0x00F3	#	LATIN SMALL LETTER O WITH ACUTE
0xF4	0x00F4	#	LATIN SMALL LETTER O WITH CIRCUMFLEX
0xF5	0x00F5	#	LATIN SMALL LETTER O WITH TILDE
0xF6	0x00F6	#	LATIN SMALL LETTER O WITH DIAERESIS
0xF7	0x0169	#	LATIN SMALL LETTER U WITH TILDE
0xF8	0x00F8	#	LATIN SMALL LETTER O WITH STROKE
0xF9	0x0173	#	LATIN SMALL LETTER U WITH OGONEK
0xFA	0x00FA	#	LATIN SMALL LETTER U WITH ACUTE
0xFB	0x00FB	#	LATIN SMALL LETTER U WITH CIRCUMFLEX
0xFC	0x00FC	#	LATIN SMALL LETTER U WITH DIAERESIS
0xFD	0x00FD	#	LATIN SMALL LETTER Y WITH ACUTE
0xFE	0x00FE	#	LATIN SMALL LETTER THORN (Icelandic)
0xFF	0x0138	#	LATIN SMALL LETTER KRA
"#

/-- src/generated/single_byte/iso-8859-10_tables.rs.inc:1-72 -/
noncomputable def iso_8859_10_source : List Text := lines! r#"// This file is auto-generated.  Please see `encoding_tables/single_byte/`
// from the root directory for the files that generate this.

use {DecodeResult, EncodeResult};

pub fn decode_to_str<'a>(
    input: &[u8],
    out_buffer: &'a mut [u8],
) -> DecodeResult<'a> {
    super::ascii_ext_decode_to_str(&DECODE_TABLE, input, out_buffer)
}

pub fn encode_from_str<'a>(
    input: &str,
    out_buffer: &'a mut [u8],
) -> EncodeResult<'a> {
    super::ascii_ext_encode_from_str(&ENCODE_TABLE, input, out_buffer)
}

const DECODE_TABLE: [char; 128] = [
    '\u{0080}','\u{0081}','\u{0082}','\u{0083}','\u{0084}','\u{0085}','\u{0086}','\u{0087}',
    '\u{0088}','\u{0089}','\u{008A}','\u{008B}','\u{008C}','\u{008D}','\u{008E}','\u{008F}',
    '\u{0090}','\u{0091}','\u{0092}','\u{0093}','\u{0094}','\u{0095}','\u{0096}','\u{0097}',
    '\u{0098}','\u{0099}','\u{009A}','\u{009B}','\u{009C}','\u{009D}','\u{009E}','\u{009F}',
    '\u{00A0}','\u{0104}','\u{0112}','\u{0122}','\u{012A}','\u{0128}','\u{0136}','\u{00A7}',
    '\u{013B}','\u{0110}','\u{0160}','\u{0166}','\u{017D}','\u{00AD}','\u{016A}','\u{014A}',
    '\u{00B0}','\u{0105}','\u{0113}','\u{0123}','\u{012B}','\u{0129}','\u{0137}','\u{00B7}',
    '\u{013C}','\u{0111}','\u{0161}','\u{0167}','\u{017E}','\u{2015}','\u{016B}','\u{014B}',
    '\u{0100}','\u{00C1}','\u{00C2}','\u{00C3}','\u{00C4}','\u{00C5}','\u{00C6}','\u{012E}',
    '\u{010C}','\u{00C9}','\u{0118}','\u{00CB}','\u{0116}','\u{00CD}','\u{00CE}','\u{00CF}',
    '\u{00D0}','\u{0145}','\u{014C}','\u{00D3}','\u{00D4}','\u{00D5}','\u{00D6}','\u{0168}',
    '\u{00D8}','\u{0172}','\u{00DA}','\u{00DB}','\u{00DC}','\u{00DD}','\u{00DE}','\u{00DF}',
    '\u{0101}','\u{00E1}','\u{00E2}','\u{00E3}','\u{00E4}','\u{00E5}','\u{00E6}','\u{012F}',
    '\u{010D}','\u{00E9}','\u{0119}','\u{00EB}','\u{0117}','\u{00ED}','\u{00EE}','\u{00EF}',
    '\u{00F0}','\u{0146}','\u{014D}','\u{00F3}','\u{00F4}','\u{00F5}','\u{00F6}','\u{0169}',
    '\u{00F8}','\u{0173}','\u{00FA}','\u{00FB}','\u{00FC}','\u{00FD}','\u{00FE}','\u{0138}',
];

const ENCODE_TABLE: [(char, u8); 128] = [
    ('\u{0080}', 0x80), ('\u{0081}', 0x81), ('\u{0082}', 0x82), ('\u{0083}', 0x83), 
    ('\u{0084}', 0x84), ('\u{0085}', 0x85), ('\u{0086}', 0x86), ('\u{0087}', 0x87), 
    ('\u{0088}', 0x88), ('\u{0089}', 0x89), ('\u{008A}', 0x8A), ('\u{008B}', 0x8B), 
    ('\u{008C}', 0x8C), ('\u{008D}', 0x8D), ('\u{008E}', 0x8E), ('\u{008F}', 0x8F), 
    ('\u{0090}', 0x90), ('\u{0091}', 0x91), ('\u{0092}', 0x92), ('\u{0093}', 0x93), 
    ('\u{0094}', 0x94), ('\u{0095}', 0x95), ('\u{0096}', 0x96), ('\u{0097}', 0x97), 
    ('\u{0098}', 0x98), ('\u{0099}', 0x99), ('\u{009A}', 0x9A), ('\u{009B}', 0x9B), 
    ('\u{009C}', 0x9C), ('\u{009D}', 0x9D), ('\u{009E}', 0x9E), ('\u{009F}', 0x9F), 
    ('\u{00A0}', 0xA0), ('\u{00A7}', 0xA7), ('\u{00AD}', 0xAD), ('\u{00B0}', 0xB0), 
    ('\u{00B7}', 0xB7), ('\u{00C1}', 0xC1), ('\u{00C2}', 0xC2), ('\u{00C3}', 0xC3), 
    ('\u{00C4}', 0xC4), ('\u{00C5}', 0xC5), ('\u{00C6}', 0xC6), ('\u{00C9}', 0xC9), 
    ('\u{00CB}', 0xCB), ('\u{00CD}', 0xCD), ('\u{00CE}', 0xCE), ('\u{00CF}', 0xCF), 
    ('\u{00D0}', 0xD0), ('\u{00D3}', 0xD3), ('\u{00D4}', 0xD4), ('\u{00D5}', 0xD5), 
    ('\u{00D6}', 0xD6), ('\u{00D8}', 0xD8), ('\u{00DA}', 0xDA), ('\u{00DB}', 0xDB), 
    ('\u{00DC}', 0xDC), ('\u{00DD}', 0xDD), ('\u{00DE}', 0xDE), ('\u{00DF}', 0xDF), 
    ('\u{00E1}', 0xE1), ('\u{00E2}', 0xE2), ('\u{00E3}', 0xE3), ('\u{00E4}', 0xE4), 
    ('\u{00E5}', 0xE5), ('\u{00E6}', 0xE6), ('\u{00E9}', 0xE9), ('\u{00EB}', 0xEB), 
    ('\u{00ED}', 0xED), ('\u{00EE}', 0xEE), ('\u{00EF}', 0xEF), ('\u{00F0}', 0xF0), 
    ('\u{00F3}', 0xF3), ('\u{00F4}', 0xF4), ('\u{00F5}', 0xF5), ('\u{00F6}', 0xF6), 
    ('\u{00F8}', 0xF8), ('\u{00FA}', 0xFA), ('\u{00FB}', 0xFB), ('\u{00FC}', 0xFC), 
    ('\u{00FD}', 0xFD), ('\u{00FE}', 0xFE), ('\u{0100}', 0xC0), ('\u{0101}', 0xE0), 
    ('\u{0104}', 0xA1), ('\u{0105}', 0xB1), ('\u{010C}', 0xC8), ('\u{010D}', 0xE8), 
    ('\u{0110}', 0xA9), ('\u{0111}', 0xB9), ('\u{0112}', 0xA2), ('\u{0113}', 0xB2), 
    ('\u{0116}', 0xCC), ('\u{0117}', 0xEC), ('\u{0118}', 0xCA), ('\u{0119}', 0xEA), 
    ('\u{0122}', 0xA3), ('\u{0123}', 0xB3), ('\u{0128}', 0xA5), ('\u{0129}', 0xB5), 
    ('\u{012A}', 0xA4), ('\u{012B}', 0xB4), ('\u{012E}', 0xC7), ('\u{012F}', 0xE7), 
    ('\u{0136}', 0xA6), ('\u{0137}', 0xB6), ('\u{0138}', 0xFF), ('\u{013B}', 0xA8), 
    ('\u{013C}', 0xB8), ('\u{0145}', 0xD1), ('\u{0146}', 0xF1), ('\u{014A}', 0xAF), 
    ('\u{014B}', 0xBF), ('\u{014C}', 0xD2), ('\u{014D}', 0xF2), ('\u{0160}', 0xAA), 
    ('\u{0161}', 0xBA), ('\u{0166}', 0xAB), ('\u{0167}', 0xBB), ('\u{0168}', 0xD7), 
    ('\u{0169}', 0xF7), ('\u{016A}', 0xAE), ('\u{016B}', 0xBE), ('\u{0172}', 0xD9), 
    ('\u{0173}', 0xF9), ('\u{017D}', 0xAC), ('\u{017E}', 0xBC), ('\u{2015}', 0xBD), 
];
"#

/-- encoding_tables/single_byte/ascii_ext/iso-8859-11.txt:1-286 -/
noncomputable def iso_8859_11_mapping : List Text := lines! r#"# 8859-11.TXT
# Date: 2015-12-02 21:55:00 GMT [KW]
# © 2015 Unicode®, Inc.
# For terms of use, see http://www.unicode.org/terms_of_use.html
#
#	Name:             ISO/IEC 8859-11:2001 to Unicode
#	Unicode version:  3.2
#	Table version:    2.0
#	Table format:     Format A
#	Date:             2002 October 7 (header updated: 2015 December 02)
#	Authors:          Ken Whistler <ken@unicode.org>
#
#	General notes:
#
#	This table contains the data the Unicode Consortium has on how
#       ISO/IEC 8859-11:2001 characters map into Unicode.
#
#	ISO/IEC 8859-11:2001 is equivalent to TIS 620-2533 (1990) with
#	the addition of 0xA0 NO-BREAK SPACE.
#
#	Format:  Three tab-separated columns
#		 Column #1 is the ISO/IEC 8859-11 code (in hex as 0xXX)
#		 Column #2 is the Unicode (in hex as 0xXXXX)
#		 Column #3 the Unicode name (follows a comment sign, '#')
#
#	The entries are in ISO/IEC 8859-11 order.
#
#	Version history:
#		2002 October 7  Created
#   2.0 version: updates to copyright notice and terms of use; no
#       changes to character mappings
#
#	Updated versions of this file may be found in:
#		http://www.unicode.org/Public/MAPPINGS/
#
#	Any comments or problems, contact us at:
#       http://www.unicode.org/reporting.html
#
0x00	0x0000	#	NULL
0x01	0x0001	#	START OF HEADING
0x02	0x0002	#	START OF TEXT
0x03	0x0003	#	END OF TEXT
0x04	0x0004	#	END OF TRANSMISSION
0x05	0x0005	#	ENQUIRY
0x06	0x0006	#	ACKNOWLEDGE
0x07	0x0007	#	BELL
0x08	0x0008	#	BACKSPACE
0x09	0x0009	#	HORIZONTAL TABULATION
0x0A	0x000A	#	LINE FEED
0x0B	0x000B	#	VERTICAL TABULATION
0x0C	0x000C	#	FORM FEED
0x0D	0x000D	#	CARRIAGE RETURN
0x0E	0x000E	#	SHIFT OUT
0x0F	0x000F	#	SHIFT IN
0x10	0x0010	#	DATA LINK ESCAPE
0x11	0x0011	#	DEVICE CONTROL ONE
0x12	0x0012	#	DEVICE CONTROL TWO
0x13	0x0013	#	DEVICE CONTROL THREE
0x14	0x0014	#	DEVICE CONTROL FOUR
0x15	0x0015	#	NEGATIVE ACKNOWLEDGE
0x16	0x0016	#	SYNCHRONOUS IDLE
0x17	0x0017	#	END OF TRANSMISSION BLOCK
0x18	0x0018	#	CANCEL
0x19	0x0019	#	END OF MEDIUM
0x1A	0x001A	#	SUBSTITUTE
0x1B	0x001B	#	ESCAPE
0x1C	0x001C	#	FILE SEPARATOR
0x1D	0x001D	#	GROUP SEPARATOR
0x1E	0x001E	#	RECORD SEPARATOR
0x1F	0x001F	#	UNIT SEPARATOR
0x20	0x0020	#	SPACE
0x21	0x0021	#	EXCLAMATION MARK
0x22	0x0022	#	QUOTATION MARK
0x23	0x0023	#	NUMBER SIGN
0x24	0x0024	#	DOLLAR SIGN
0x25	0x0025	#	PERCENT SIGN
0x26	0x0026	#	AMPERSAND
0x27	0x0027	#	APOSTROPHE
0x28	0x0028	#	LEFT PARENTHESIS
0x29	0x0029	#	RIGHT PARENTHESIS
0x2A	0x002A	#	ASTERISK
0x2B	0x002B	#	PLUS SIGN
0x2C	0x002C	#	COMMA
0x2D	0x002D	#	HYPHEN-MINUS
0x2E	0x002E	#	FULL STOP
0x2F	0x002F	#	SOLIDUS
0x30	0x0030	#	DIGIT ZERO
0x31	0x0031	#	DIGIT ONE
0x32	0x0032	#	DIGIT TWO
0x33	0x0033	#	DIGIT THREE
0x34	0x0034	#	DIGIT FOUR
0x35	0x0035	#	DIGIT FIVE
0x36	0x0036	#	DIGIT SIX
0x37	0x0037	#	DIGIT SEVEN
0x38	0x0038	#	DIGIT EIGHT
0x39	0x0039	#	DIGIT NINE
0x3A	0x003A	#	COLON
0x3B	0x003B	#	SEMICOLON
0x3C	0x003C	#	LESS-THAN SIGN
0x3D	0x003D	#	EQUALS SIGN
0x3E	0x003E	#	GREATER-THAN SIGN
0x3F	0x003F	#	QUESTION MARK
0x40	0x0040	#	COMMERCIAL AT
0x41	0x0041	#	LATIN CAPITAL LETTER A
0x42	0x0042	#	LATIN CAPITAL LETTER B
0x43	0x0043	#	LATIN CAPITAL LETTER C
0x44	0x0044	#	LATIN CAPITAL LETTER D
0x45	0x0045	#	LATIN CAPITAL LETTER E
0x46	0x0046	#	LATIN CAPITAL LETTER F
0x47	0x0047	#	LATIN CAPITAL LETTER G
0x48	0x0048	#	LATIN CAPITAL LETTER H
0x49	0x0049	#	LATIN CAPITAL LETTER I
0x4A	0x004A	#	LATIN CAPITAL LETTER J
0x4B	0x004B	#	LATIN CAPITAL LETTER K
0x4C	0x004C	#	LATIN CAPITAL LETTER L
0x4D	0x004D	#	LATIN CAPITAL LETTER M
0x4E	0x004E	#	LATIN CAPITAL LETTER N
0x4F	0x004F	#	LATIN CAPITAL LETTER O
0x50	0x0050	#	LATIN CAPITAL LETTER P
0x51	0x0051	#	LATIN CAPITAL LETTER Q
0x52	0x0052	#	LATIN CAPITAL LETTER R
0x53	0x0053	#	LATIN CAPITAL LETTER S
0x54	0x0054	#	LATIN CAPITAL LETTER T
0x55	0x0055	#	LATIN CAPITAL LETTER U
0x56	0x0056	#	LATIN CAPITAL LETTER V
0x57	0x0057	#	LATIN CAPITAL LETTER W
0x58	0x0058	#	LATIN CAPITAL LETTER X
0x59	0x0059	#	LATIN CAPITAL LETTER Y
0x5A	0x005A	#	LATIN CAPITAL LETTER Z
0x5B	0x005B	#	LEFT SQUARE BRACKET
0x5C	0x005C	#	REVERSE SOLIDUS
0x5D	0x005D	#	RIGHT SQUARE BRACKET
0x5E	0x005E	#	CIRCUMFLEX ACCENT
0x5F	0x005F	#	LOW LINE
0x60	0x0060	#	GRAVE ACCENT
0x61	0x0061	#	LATIN SMALL LETTER A
0x62	0x0062	#	LATIN SMALL LETTER B
0x63	0x0063	#	LATIN SMALL LETTER C
0x64	0x0064	#	LATIN SMALL LETTER D
0x65	0x0065	#	LATIN SMALL LETTER E
0x66	0x0066	#	LATIN SMALL LETTER F
0x67	0x0067	#	LATIN SMALL LETTER G
0x68	0x0068	#	LATIN SMALL LETTER H
0x69	0x0069	#	LATIN SMALL LETTER I
0x6A	0x006A	#	LATIN SMALL LETTER J
0x6B	0x006B	#	LATIN SMALL LETTER K
0x6C	0x006C	#	LATIN SMALL LETTER L
0x6D	0x006D	#	LATIN SMALL LETTER M
0x6E	0x006E	#	LATIN SMALL LETTER N
0x6F	0x006F	#	LATIN SMALL LETTER O
0x70	0x0070	#	LATIN SMALL LETTER P
0x71	0x0071	#	LATIN SMALL LETTER Q
0x72	0x0072	#	LATIN SMALL LETTER R
0x73	0x0073	#	LATIN SMALL LETTER S
0x74	0x0074	#	LATIN SMALL LETTER T
0x75	0x0075	#	LATIN SMALL LETTER U
0x76	0x0076	#	LATIN SMALL LETTER V
0x77	0x0077	#	LATIN SMALL LETTER W
0x78	0x0078	#	LATIN SMALL LETTER X
0x79	0x0079	#	LATIN SMALL LETTER Y
0x7A	0x007A	#	LATIN SMALL LETTER Z
0x7B	0x007B	#	LEFT CURLY BRACKET
0x7C	0x007C	#	VERTICAL LINE
0x7D	0x007D	#	RIGHT CURLY BRACKET
0x7E	0x007E	#	TILDE
0x7F	0x007F	#	DELETE
0x80	0x0080	#	<control>
0x81	0x0081	#	<control>
0x82	0x0082	#	<control>
0x83	0x0083	#	<control>
0x84	0x0084	#	<control>
0x85	0x0085	#	<control>
0x86	0x0086	#	<control>
0x87	0x0087	#	<control>
0x88	0x0088	#	<control>
0x89	0x0089	#	<control>
0x8A	0x008A	#	<control>
0x8B	0x008B	#	<control>
0x8C	0x008C	#	<control>
0x8D	0x008D	#	<control>
0x8E	0x008E	#	<control>
0x8F	0x008F	#	<control>
0x90	0x0090	#	<control>
0x91	0x0091	#	<control>
0x92	0x0092	#	<control>
0x93	0x0093	#	<control>
0x94	0x0094	#	<control>
0x95	0x0095	#	<control>
0x96	0x0096	#	<control>
0x97	0x0097	#	<control>
0x98	0x0098	#	<control>
0x99	0x0099	#	<control>
0x9A	0x009A	#	<control>
0x9B	0x009B	#	<control>
0x9C	0x009C	#	<control>
0x9D	0x009D	#	<control>
0x9E	0x009E	#	<control>
0x9F	0x009F	#	<control>
0xA0	0x00A0	#	NO-BREAK SPACE
0xA1	0x0E01	#	THAI CHARACTER KO KAI
0xA2	0x0E02	#	THAI CHARACTER KHO KHAI
0xA3	0x0E03	#	THAI CHARACTER KHO KHUAT
0xA4	0x0E04	#	THAI CHARACTER KHO KHWAI
0xA5	0x0E05	#	THAI CHARACTER KHO KHON
0xA6	0x0E06	#	THAI CHARACTER KHO RAKHANG
0xA7	0x0E07	#	THAI CHARACTER NGO NGU
0xA8	0x0E08	#	THAI CHARACTER CHO CHAN
0xA9	0x0E09	#	THAI CHARACTER CHO CHING
0xAA	0x0E0A	#	THAI CHARACTER CHO CHANG
0xAB	0x0E0B	#	THAI CHARACTER SO SO
0xAC	0x0E0C	#	THAI CHARACTER CHO CHOE
0xAD	0x0E0D	#	THAI CHARACTER YO YING
0xAE	0x0E0E	#	THAI CHARACTER DO CHADA
0xAF	0x0E0F	#	THAI CHARACTER TO PATAK
0xB0	0x0E10	#	THAI CHARACTER THO THAN
0xB1	0x0E11	#	THAI CHARACTER THO NANGMONTHO
0xB2	0x0E12	#	THAI CHARACTER THO PHUTHAO
0xB3	0x0E13	#	THAI CHARACTER NO NEN
0xB4	0x0E14	#	THAI CHARACTER DO DEK
0xB5	0x0E15	#	THAI CHARACTER TO TAO
0xB6	0x0E16	#	THAI CHARACTER THO THUNG
0xB7	0x0E17	#	THAI CHARACTER THO THAHAN
0xB8	0x0E18	#	THAI CHARACTER THO THONG
0xB9	0x0E19	#	THAI CHARACTER NO NU
0xBA	0x0E1A	#	THAI CHARACTER BO BAIMAI
0xBB	0x0E1B	#	THAI CHARACTER PO PLA
0xBC	0x0E1C	#	THAI CHARACTER PHO PHUNG
0xBD	0x0E1D	#	THAI CHARACTER FO FA
0xBE	0x0E1E	#	THAI CHARACTER PHO PHAN
0xBF	0x0E1F	#	THAI CHARACTER FO FAN
0xC0	0x0E20	#	THAI CHARACTER PHO SAMPHAO
0xC1	0x0E21	#	THAI CHARACTER MO MA
0xC2	0x0E22	#	THAI CHARACTER YO YAK
0xC3	0x0E23	#	THAI CHARACTER RO RUA
0xC4	0x0E24	#	THAI CHARACTER RU
0xC5	0x0E25	#	THAI CHARACTER LO LING
0xC6	0x0E26	#	THAI CHARACTER LU
0xC7	0x0E27	#	THAI CHARACTER WO WAEN
0xC8	0x0E28	#	THAI CHARACTER SO SALA
0xC9	0x0E29	#	THAI CHARACTER SO RUSI
0xCA	0x0E2A	#	THAI CHARACTER SO SUA
0xCB	0x0E2B	#	THAI CHARACTER HO HIP
0xCC	0x0E2C	#	THAI CHARACTER LO CHULA
0xCD	0x0E2D	#	THAI CHARACTER O ANG
0xCE	0x0E2E	#	THAI CHARACTER HO NOKHUK
0xCF	0x0E2F	#	THAI CHARACTER PAIYANNOI
0xD0	0x0E30	#	THAI CHARACTER SARA A
0xD1	0x0E31	#	THAI CHARACTER MAI HAN-AKAT
0xD2	0x0E32	#	THAI CHARACTER SARA AA
0xD3	0x0E33	#	THAI CHARACTER SARA AM
0xD4	0x0E34	#	THAI CHARACTER SARA I
0xD5	0x0E35	#	THAI CHARACTER SARA II
0xD6	0x0E36	#	THAI CHARACTER SARA UE
0xD7	0x0E37	#	THAI CHARACTER SARA UEE
0xD8	0x0E38	#	THAI CHARACTER SARA U
0xD9	0x0E39	#	THAI CHARACTER SARA UU
0xDA	0x0E3A	#	THAI CHARACTER PHINTHU
0xDF	0x0E3F	#	THAI CURRENCY SYMBOL BAHT
0xE0	0x0E40	#	THAI CHARACTER SARA E
0xE1	0x0E41	#	THAI CHARACTER SARA AE
0xE2	0x0E42	#	THAI CHARACTER SARA O
0xE3	0x0E43	#	THAI CHARACTER SARA AI MAIMUAN
0xE4	0x0E44	#	THAI CHARACTER SARA AI MAIMALAI
0xE5	0x0E45	#	THAI CHARACTER LAKKHANGYAO
0xE6	0x0E46	#	THAI CHARACTER MAIYAMOK
0xE7	0x0E47	#	THAI CHARACTER MAITAIKHU
0xE8	0x0E48	#	THAI CHARACTER MAI EK
0xE9	0x0E49	#	THAI CHARACTER MAI THO
0xEA	0x0E4A	#	THAI CHARACTER MAI TRI
0xEB	0x0E4B	#	THAI CHARACTER MAI CHATTAWA
0xEC	0x0E4C	#	THAI CHARACTER THANTHAKHAT
0xED	0x0E4D	#	THAI CHARACTER NIKHAHIT
0xEE	0x0E4E	#	THAI CHARACTER YAMAKKAN
0xEF	0x0E4F	#	THAI CHARACTER FONGMAN
0xF0	0x0E50	#	THAI DIGIT ZERO
0xF1	0x0E51	#	THAI DIGIT ONE
0xF2	0x0E52	#	THAI DIGIT TWO
0xF3	0x0E53	#	THAI DIGIT THREE
0xF4	0x0E54	#	THAI DIGIT FOUR
0xF5	0x0E55	#	THAI DIGIT FIVE
0xF6	0x0E56	#	THAI DIGIT SIX
0xF7	0x0E57	#	THAI DIGIT SEVEN
0xF8	0x0E58	#	THAI DIGIT EIGHT
0xF9	0x0E59	#	THAI DIGIT NINE
0xFA	0x0E5A	#	THAI CHARACTER ANGKHANKHU
0xFB	0x0E5B	#	THAI CHARACTER KHOMUT
"#

/-- src/generated/single_byte/iso-8859-11_tables.rs.inc:1-70 -/
noncomputable def iso_8859_11_source : List Text := lines! r#"// This file is auto-generated.  Please see `encoding_tables/single_byte/`
// from the root directory for the files that generate this.

use {DecodeResult, EncodeResult};

pub fn decode_to_str<'a>(
    input: &[u8],
    out_buffer: &'a mut [u8],
) -> DecodeResult<'a> {
    super::ascii_ext_decode_to_str(&DECODE_TABLE, input, out_buffer)
}

pub fn encode_from_str<'a>(
    input: &str,
    out_buffer: &'a mut [u8],
) -> EncodeResult<'a> {
    super::ascii_ext_encode_from_str(&ENCODE_TABLE, input, out_buffer)
}

const DECODE_TABLE: [char; 128] = [
    '\u{0080}','\u{0081}','\u{0082}','\u{0083}','\u{0084}','\u{0085}','\u{0086}','\u{0087}',
    '\u{0088}','\u{0089}','\u{008A}','\u{008B}','\u{008C}','\u{008D}','\u{008E}','\u{008F}',
    '\u{0090}','\u{0091}','\u{0092}','\u{0093}','\u{0094}','\u{0095}','\u{0096}','\u{0097}',
    '\u{0098}','\u{0099}','\u{009A}','\u{009B}','\u{009C}','\u{009D}','\u{009E}','\u{009F}',
    '\u{00A0}','\u{0E01}','\u{0E02}','\u{0E03}','\u{0E04}','\u{0E05}','\u{0E06}','\u{0E07}',
    '\u{0E08}','\u{0E09}','\u{0E0A}','\u{0E0B}','\u{0E0C}','\u{0E0D}','\u{0E0E}','\u{0E0F}',
    '\u{0E10}','\u{0E11}','\u{0E12}','\u{0E13}','\u{0E14}','\u{0E15}','\u{0E16}','\u{0E17}',
    '\u{0E18}','\u{0E19}','\u{0E1A}','\u{0E1B}','\u{0E1C}','\u{0E1D}','\u{0E1E}','\u{0E1F}',
    '\u{0E20}','\u{0E21}','\u{0E22}','\u{0E23}','\u{0E24}','\u{0E25}','\u{0E26}','\u{0E27}',
    '\u{0E28}','\u{0E29}','\u{0E2A}','\u{0E2B}','\u{0E2C}','\u{0E2D}','\u{0E2E}','\u{0E2F}',
    '\u{0E30}','\u{0E31}','\u{0E32}','\u{0E33}','\u{0E34}','\u{0E35}','\u{0E36}','\u{0E37}',
    '\u{0E38}','\u{0E39}','\u{0E3A}','�','�','�','�','\u{0E3F}',
    '\u{0E40}','\u{0E41}','\u{0E42}','\u{0E43}','\u{0E44}','\u{0E45}','\u{0E46}','\u{0E47}',
    '\u{0E48}','\u{0E49}','\u{0E4A}','\u{0E4B}','\u{0E4C}','\u{0E4D}','\u{0E4E}','\u{0E4F}',
    '\u{0E50}','\u{0E51}','\u{0E52}','\u{0E53}','\u{0E54}','\u{0E55}','\u{0E56}','\u{0E57}',
    '\u{0E58}','\u{0E59}','\u{0E5A}','\u{0E5B}','�','�','�','�',
];

const ENCODE_TABLE: [(char, u8); 120] = [
    ('\u{0080}', 0x80), ('\u{0081}', 0x81), ('\u{0082}', 0x82), ('\u{0083}', 0x83), 
    ('\u{0084}', 0x84), ('\u{0085}', 0x85), ('\u{0086}', 0x86), ('\u{0087}', 0x87), 
    ('\u{0088}', 0x88), ('\u{0089}', 0x89), ('\u{008A}', 0x8A), ('\u{008B}', 0x8B), 
    ('\u{008C}', 0x8C), ('\u{008D}', 0x8D), ('\u{008E}', 0x8E), ('\u{008F}', 0x8F), 
    ('\u{0090}', 0x90), ('\u{0091}', 0x91), ('\u{0092}', 0x92), ('\u{0093}', 0x93), 
    ('\u{0094}', 0x94), ('\u{0095}', 0x95), ('\u{0096}', 0x96), ('\u{0097}', 0x97), 
    ('\u{0098}', 0x98), ('\u{0099}', 0x99), ('\u{009A}', 0x9A), ('\u{009B}', 0x9B), 
    ('\u{009C}', 0x9C), ('\u{009D}', 0x9D), ('\u{009E}', 0x9E), ('\u{009F}', 0x9F), 
    ('\u{00A0}', 0xA0), ('\u{0E01}', 0xA1), ('\u{0E02}', 0xA2), ('\u{0E03}', 0xA3), 
    ('\u{0E04}', 0xA4), ('\u{0E05}', 0xA5), ('\u{0E06}', 0xA6), ('\u{0E07}', 0xA7), 
    ('\u{0E08}', 0xA8), ('\u{0E09}', 0xA9), ('\u{0E0A}', 0xAA), ('\u{0E0B}', 0xAB), 
    ('\u{0E0C}', 0xAC), ('\u{0E0D}', 0xAD), ('\u{0E0E}', 0xAE), ('\u{0E0F}', 0xAF), 
    ('\u{0E10}', 0xB0), ('\u{0E11}', 0xB1), ('\u{0E12}', 0xB2), ('\u{0E13}', 0xB3), 
    ('\u{0E14}', 0xB4), ('\u{0E15}', 0xB5), ('\u{0E16}', 0xB6), ('\u{0E17}', 0xB7), 
    ('\u{0E18}', 0xB8), ('\u{0E19}', 0xB9), ('\u{0E1A}', 0xBA), ('\u{0E1B}', 0xBB), 
    ('\u{0E1C}', 0xBC), ('\u{0E1D}', 0xBD), ('\u{0E1E}', 0xBE), ('\u{0E1F}', 0xBF), 
    ('\u{0E20}', 0xC0), ('\u{0E21}', 0xC1), ('\u{0E22}', 0xC2), ('\u{0E23}', 0xC3), 
    ('\u{0E24}', 0xC4), ('\u{0E25}', 0xC5), ('\u{0E26}', 0xC6), ('\u{0E27}', 0xC7), 
    ('\u{0E28}', 0xC8), ('\u{0E29}', 0xC9), ('\u{0E2A}', 0xCA), ('\u{0E2B}', 0xCB), 
    ('\u{0E2C}', 0xCC), ('\u{0E2D}', 0xCD), ('\u{0E2E}', 0xCE), ('\u{0E2F}', 0xCF), 
    ('\u{0E30}', 0xD0), ('\u{0E31}', 0xD1), ('\u{0E32}', 0xD2), ('\u{0E33}', 0xD3), 
    ('\u{0E34}', 0xD4), ('\u{0E35}', 0xD5), ('\u{0E36}', 0xD6), ('\u{0E37}', 0xD7), 
    ('\u{0E38}', 0xD8), ('\u{0E39}', 0xD9), ('\u{0E3A}', 0xDA), ('\u{0E3F}', 0xDF), 
    ('\u{0E40}', 0xE0), ('\u{0E41}', 0xE1), ('\u{0E42}', 0xE2), ('\u{0E43}', 0xE3), 
    ('\u{0E44}', 0xE4), ('\u{0E45}', 0xE5), ('\u{0E46}', 0xE6), ('\u{0E47}', 0xE7), 
    ('\u{0E48}', 0xE8), ('\u{0E49}', 0xE9), ('\u{0E4A}', 0xEA), ('\u{0E4B}', 0xEB), 
    ('\u{0E4C}', 0xEC), ('\u{0E4D}', 0xED), ('\u{0E4E}', 0xEE), ('\u{0E4F}', 0xEF), 
    ('\u{0E50}', 0xF0), ('\u{0E51}', 0xF1), ('\u{0E52}', 0xF2), ('\u{0E53}', 0xF3), 
    ('\u{0E54}', 0xF4), ('\u{0E55}', 0xF5), ('\u{0E56}', 0xF6), ('\u{0E57}', 0xF7), 
    ('\u{0E58}', 0xF8), ('\u{0E59}', 0xF9), ('\u{0E5A}', 0xFA), ('\u{0E5B}', 0xFB), 
];
"#

/-- encoding_tables/single_byte/ascii_ext/iso-8859-13.txt:1-291 -/
noncomputable def iso_8859_13_mapping : List Text := lines! r#"# 8859-13.TXT
# Date: 2015-12-02 22:03:00 GMT [KW]
# © 2015 Unicode®, Inc.
# For terms of use, see http://www.unicode.org/terms_of_use.html
#
#	Name:             ISO/IEC 8859-13:1998  to Unicode
#	Unicode version:  3.0
#	Table version:    2.0
#	Table format:     Format A
#	Date:             1999 July 27 (header updated: 2015 December 02)
#	Authors:          Ken Whistler <ken@unicode.org>
#
#	General notes:
#
#	This table contains the data the Unicode Consortium has on how
#       ISO/IEC 8859-13:1998 characters map into Unicode.
#
#	Format:  Three tab-separated columns
#		 Column #1 is the ISO/IEC 8859-13 code (in hex as 0xXX)
#		 Column #2 is the Unicode (in hex as 0xXXXX)
#		 Column #3 the Unicode name (follows a comment sign, '#')
#
#	The entries are in ISO/IEC 8859-13 order.
#
#	Version history
#   1.0 version: created
#   2.0 version: updates to copyright notice and terms of use; no
#       changes to character mappings
#
#	Updated versions of this file may be found in:
#		http://www.unicode.org/Public/MAPPINGS/
#
#	Any comments or problems, contact us at:
#       http://www.unicode.org/reporting.html
#
0x00	0x0000	#	NULL
0x01	0x0001	#	START OF HEADING
0x02	0x0002	#	START OF TEXT
0x03	0x0003	#	END OF TEXT
0x04	0x0004	#	END OF TRANSMISSION
0x05	0x0005	#	ENQUIRY
0x06	0x0006	#	ACKNOWLEDGE
0x07	0x0007	#	BELL
0x08	0x0008	#	BACKSPACE
0x09	0x0009	#	HORIZONTAL TABULATION
0x0A	0x000A	#	LINE FEED
0x0B	0x000B	#	VERTICAL TABULATION
0x0C	0x000C	#	FORM FEED
0x0D	0x000D	#	CARRIAGE RETURN
0x0E	0x000E	#	SHIFT OUT
0x0F	0x000F	#	SHIFT IN
0x10	0x0010	#	DATA LINK ESCAPE
0x11	0x0011	#	DEVICE CONTROL ONE
0x12	0x0012	#	DEVICE CONTROL TWO
0x13	0x0013	#	DEVICE CONTROL THREE
0x14	0x0014	#	DEVICE CONTROL FOUR
0x15	0x0015	#	NEGATIVE ACKNOWLEDGE
0x16	0x0016	#	SYNCHRONOUS IDLE
0x17	0x0017	#	END OF TRANSMISSION BLOCK
0x18	0x0018	#	CANCEL
0x19	0x0019	#	END OF MEDIUM
0x1A	0x001A	#	SUBSTITUTE
0x1B	0x001B	#	ESCAPE
0x1C	0x001C	#	FILE SEPARATOR
0x1D	0x001D	#	GROUP SEPARATOR
0x1E	0x001E	#	RECORD SEPARATOR
0x1F	0x001F	#	UNIT SEPARATOR
0x20	0x0020	#	SPACE
0x21	0x0021	#	EXCLAMATION MARK
0x22	0x0022	#	QUOTATION MARK
0x23	0x0023	#	NUMBER SIGN
0x24	0x0024	#	DOLLAR SIGN
0x25	0x0025	#	PERCENT SIGN
0x26	0x0026	#	AMPERSAND
0x27	0x0027	#	APOSTROPHE
0x28	0x0028	#	LEFT PARENTHESIS
0x29	0x0029	#	RIGHT PARENTHESIS
0x2A	0x002A	#	ASTERISK
0x2B	0x002B	#	PLUS SIGN
0x2C	0x002C	#	COMMA
0x2D	0x002D	#	HYPHEN-MINUS
0x2E	0x002E	#	FULL STOP
0x2F	0x002F	#	SOLIDUS
0x30	0x0030	#	DIGIT ZERO
0x31	0x0031	#	DIGIT ONE
0x32	0x0032	#	DIGIT TWO
0x33	0x0033	#	DIGIT THREE
0x34	0x0034	#	DIGIT FOUR
0x35	0x0035	#	DIGIT FIVE
0x36	0x0036	#	DIGIT SIX
0x37	0x0037	#	DIGIT SEVEN
0x38	0x0038	#	DIGIT EIGHT
0x39	0x0039	#	DIGIT NINE
0x3A	0x003A	#	COLON
0x3B	0x003B	#	SEMICOLON
0x3C	0x003C	#	LESS-THAN SIGN
0x3D	0x003D	#	EQUALS SIGN
0x3E	0x003E	#	GREATER-THAN SIGN
0x3F	0x003F	#	QUESTION MARK
0x40	0x0040	#	COMMERCIAL AT
0x41	0x0041	#	LATIN CAPITAL LETTER A
0x42	0x0042	#	LATIN CAPITAL LETTER B
0x43	0x0043	#	LATIN CAPITAL LETTER C
0x44	0x0044	#	LATIN CAPITAL LETTER D
0x45	0x0045	#	LATIN CAPITAL LETTER E
0x46	0x0046	#	LATIN CAPITAL LETTER F
0x47	0x0047	#	LATIN CAPITAL LETTER G
0x48	0x0048	#	LATIN CAPITAL LETTER H
0x49	0x0049	#	LATIN CAPITAL LETTER I
0x4A	0x004A	#	LATIN CAPITAL LETTER J
0x4B	0x004B	#	LATIN CAPITAL LETTER K
0x4C	0x004C	#	LATIN CAPITAL LETTER L
0x4D	0x004D	#	LATIN CAPITAL LETTER M
0x4E	0x004E	#	LATIN CAPITAL LETTER N
0x4F	0x004F	#	LATIN CAPITAL LETTER O
0x50	0x0050	#	LATIN CAPITAL LETTER P
0x51	0x0051	#	LATIN CAPITAL LETTER Q
0x52	0x0052	#	LATIN CAPITAL LETTER R
0x53	0x0053	#	LATIN CAPITAL LETTER S
0x54	0x0054	#	LATIN CAPITAL LETTER T
0x55	0x0055	#	LATIN CAPITAL LETTER U
0x56	0x0056	#	LATIN CAPITAL LETTER V
0x57	0x0057	#	LATIN CAPITAL LETTER W
0x58	0x0058	#	LATIN CAPITAL LETTER X
0x59	0x0059	#	LATIN CAPITAL LETTER Y
0x5A	0x005A	#	LATIN CAPITAL LETTER Z
0x5B	0x005B	#	LEFT SQUARE BRACKET
0x5C	0x005C	#	REVERSE SOLIDUS
0x5D	0x005D	#	RIGHT SQUARE BRACKET
0x5E	0x005E	#	CIRCUMFLEX ACCENT
0x5F	0x005F	#	LOW LINE
0x60	0x0060	#	GRAVE ACCENT
0x61	0x0061	#	LATIN SMALL LETTER A
0x62	0x0062	#	LATIN SMALL LETTER B
0x63	0x0063	#	LATIN SMALL LETTER C
0x64	0x0064	#	LATIN SMALL LETTER D
0x65	0x0065	#	LATIN SMALL LETTER E
0x66	0x0066	#	LATIN SMALL LETTER F
0x67	0x0067	#	LATIN SMALL LETTER G
0x68	0x0068	#	LATIN SMALL LETTER H
0x69	0x0069	#	LATIN SMALL LETTER I
0x6A	0x006A	#	LATIN SMALL LETTER J
0x6B	0x006B	#	LATIN SMALL LETTER K
0x6C	0x006C	#	LATIN SMALL LETTER L
0x6D	0x006D	#	LATIN SMALL LETTER M
0x6E	0x006E	#	LATIN SMALL LETTER N
0x6F	0x006F	#	LATIN SMALL LETTER O
0x70	0x0070	#	LATIN SMALL LETTER P
0x71	0x0071	#	LATIN SMALL LETTER Q
0x72	0x0072	#	LATIN SMALL LETTER R
0x73	0x0073	#	LATIN SMALL LETTER S
0x74	0x0074	#	LATIN SMALL LETTER T
0x75	0x0075	#	LATIN SMALL LETTER U
0x76	0x0076	#	LATIN SMALL LETTER V
0x77	0x0077	#	LATIN SMALL LETTER W
0x78	0x0078	#	LATIN SMALL LETTER X
0x79	0x0079	#	LATIN SMALL LETTER Y
0x7A	0x007A	#	LATIN SMALL LETTER Z
0x7B	0x007B	#	LEFT CURLY BRACKET
0x7C	0x007C	#	VERTICAL LINE
0x7D	0x007D	#	RIGHT CURLY BRACKET
0x7E	0x007E	#	TILDE
0x7F	0x007F	#	DELETE
0x80	0x0080	#	<control>
0x81	0x0081	#	<control>
0x82	0x0082	#	<control>
0x83	0x0083	#	<control>
0x84	0x0084	#	<control>
0x85	0x0085	#	<control>
0x86	0x0086	#	<control>
0x87	0x0087	#	<control>
0x88	0x0088	#	<control>
0x89	0x0089	#	<control>
0x8A	0x008A	#	<control>
0x8B	0x008B	#	<control>
0x8C	0x008C	#	<control>
0x8D	0x008D	#	<control>
0x8E	0x008E	#	<control>
0x8F	0x008F	#	<control>
0x90	0x0090	#	<control>
0x91	0x0091	#	<control>
0x92	0x0092	#	<control>
0x93	0x0093	#	<control>
0x94	0x0094	#	<control>
0x95	0x0095	#	<control>
0x96	0x0096	#	<control>
0x97	0x0097	#	<control>
0x98	0x0098	#	<control>
0x99	0x0099	#	<control>
0x9A	0x009A	#	<control>
0x9B	0x009B	#	<control>
0x9C	0x009C	#	<control>
0x9D	0x009D	#	<control>
0x9E	0x009E	#	<control>
0x9F	0x009F	#	<control>
0xA0	0x00A0	#	NO-BREAK SPACE
0xA1	0x201D	#	RIGHT DOUBLE QUOTATION MARK
0xA2	0x00A2	#	CENT SIGN
0xA3	0x00A3	#	POUND SIGN
0xA4	0x00A4	#	CURRENCY SIGN
0xA5	0x201E	#	DOUBLE LOW-9 QUOTATION MARK
0xA6	0x00A6	#	BROKEN BAR
0xA7	0x00A7	#	SECTION SIGN
0xA8	0x00D8	#	LATIN CAPITAL LETTER O WITH STROKE
0xA9	0x00A9	#	COPYRIGHT SIGN
0xAA	0x0156	#	LATIN CAPITAL LETTER R WITH CEDILLA
0xAB	0x00AB	#	LEFT-POINTING DOUBLE ANGLE QUOTATION MARK
0xAC	0x00AC	#	NOT SIGN
0xAD	0x00AD	#	SOFT HYPHEN
0xAE	0x00AE	#	REGISTERED SIGN
0xAF	0x00C6	#	LATIN CAPITAL LETTER AE
0xB0	0x00B0	#	DEGREE SIGN
0xB1	0x00B1	#	PLUS-MINUS SIGN
0xB2	0x00B2	#	SUPERSCRIPT TWO
0xB3	0x00B3	#	SUPERSCRIPT THREE
0xB4	0x201C	#	LEFT DOUBLE QUOTATION MARK
0xB5	0x00B5	#	MICRO SIGN
0xB6	0x00B6	#	PILCROW SIGN
0xB7	0x00B7	#	MIDDLE DOT
0xB8	0x00F8	#	LATIN SMALL LETTER O WITH STROKE
0xB9	0x00B9	#	SUPERSCRIPT ONE
0xBA	0x0157	#	LATIN SMALL LETTER R WITH CEDILLA
0xBB	0x00BB	#	RIGHT-POINTING DOUBLE ANGLE QUOTATION MARK
0xBC	0x00BC	#	VULGAR FRACTION ONE QUARTER
0xBD	0x00BD	#	VULGAR FRACTION ONE HALF
0xBE	0x00BE	#	VULGAR FRACTION THREE QUARTERS
0xBF	0x00E6	#	LATIN SMALL LETTER AE
0xC0	0x0104	#	LATIN CAPITAL LETTER A WITH OGONEK
0xC1	0x012E	#	LATIN CAPITAL LETTER I WITH OGONEK
0xC2	0x0100	#	LATIN CAPITAL LETTER A WITH MACRON
0xC3	0x0106	#	LATIN CAPITAL LETTER C WITH ACUTE
0xC4	0x00C4	#	LATIN CAPITAL LETTER A WITH DIAERESIS
0xC5	0x00C5	#	LATIN CAPITAL LETTER A WITH RING ABOVE
0xC6	0x0118	#	LATIN CAPITAL LETTER E WITH OGONEK
0xC7	0x0112	#	LATIN CAPITAL LETTER E WITH MACRON
0xC8	0x010C	#	LATIN CAPITAL LETTER C WITH CARON
0xC9	0x00C9	#	LATIN CAPITAL LETTER E WITH ACUTE
0xCA	0x0179	#	LATIN CAPITAL LETTER Z WITH ACUTE
0xCB	0x0116	#	LATIN CAPITAL LETTER E WITH DOT ABOVE
0xCC	0x0122	#	LATIN CAPITAL LETTER G WITH CEDILLA
0xCD	0x0136	#	LATIN CAPITAL LETTER K WITH CEDILLA
0xCE	0x012A	#	LATIN CAPITAL LETTER I WITH MACRON
0xCF	0x013B	#	LATIN CAPITAL LETTER L WITH CEDILLA
0xD0	0x0160	#	LATIN CAPITAL LETTER S WITH CARON
0xD1	0x0143	#	LATIN CAPITAL LETTER N WITH ACUTE
0xD2	0x0145	#	LATIN CAPITAL LETTER N WITH CEDILLA
0xD3	0x00D3	#	LATIN CAPITAL LETTER O WITH ACUTE
0xD4	0x014C	#	LATIN CAPITAL LETTER O WITH MACRON
0xD5	0x00D5	#	LATIN CAPITAL LETTER O WITH TILDE
0xD6	0x00D6	#	LATIN CAPITAL LETTER O WITH DIAERESIS
0xD7	0x00D7	#	MULTIPLICATION SIGN
0xD8	0x0172	#	LATIN CAPITAL LETTER U WITH OGONEK
0xD9	0x0141	#	LATIN CAPITAL LETTER L WITH STROKE
0xDA	0x015A	#	LATIN CAPITAL LETTER S WITH ACUTE
0xDB	0x016A	#	LATIN CAPITAL LETTER U WITH MACRON
0xDC	0x00DC	#	LATIN CAPITAL LETTER U WITH DIAERESIS
0xDD	0x017B	#	LATIN CAPITAL LETTER Z WITH DOT ABOVE
0xDE	0x017D	#	LATIN CAPITAL LETTER Z WITH CARON
0xDF	0x00DF	#	LATIN SMALL LETTER SHARP S (German)
0xE0	0x0105	#	LATIN SMALL LETTER A WITH OGONEK
0xE1	0x012F	#	LATIN SMALL LETTER I WITH OGONEK
0xE2	0x0101	#	LATIN SMALL LETTER A WITH MACRON
0xE3	0x0107	#	LATIN SMALL LETTER C WITH ACUTE
0xE4	0x00E4	#	LATIN SMALL LETTER A WITH DIAERESIS
0xE5	0x00E5	#	LATIN SMALL LETTER A WITH RING ABOVE
0xE6	0x0119	#	LATIN SMALL LETTER E WITH OGONEK
0xE7	0x0113	#	LATIN SMALL LETTER E WITH MACRON
0xE8	0x010D	#	LATIN SMALL LETTER C WITH CARON
0xE9	0x00E9	#	LATIN SMALL LETTER E WITH ACUTE
0xEA	0x017A	#	LATIN SMALL LETTER Z WITH ACUTE
0xEB	0x0117	#	LATIN SMALL LETTER E WITH DOT ABOVE
0xEC	0x0123	#	LATIN SMALL LETTER G WITH CEDILLA
0xED	0x0137	#	LATIN SMALL LETTER K WITH CEDILLA
0xEE	0x012B	#	LATIN SMALL LETTER I WITH MACRON
0xEF	0x013C	#	LATIN SMALL LETTER L WITH CEDILLA
0xF0	0x0161	#	LATIN SMALL LETTER S WITH CARON
0xF1	0x0144	#	LATIN SMALL LETTER N WITH ACUTE
0xF2	0x0146	#	LATIN SMALL LETTER N WITH CEDILLA
0xF3	0x00F3	#	LATIN SMALL LETTER O WITH ACUTE
0xF4	0x014D	#	LATIN SMALL LETTER O WITH MACRON
0xF5	0x00F5	#	LATIN SMALL LETTER O WITH TILDE
0xF6	0x00F6	#	LATIN SMALL LETTER O WITH DIAERESIS
0xF7	0x00F7	#	DIVISION SIGN
0xF8	0x0173	#	LATIN SMALL LETTER U WITH OGONEK
0xF9	0x0142	#	LATIN SMALL LETTER L WITH STROKE
0xFA	0x015B	#	LATIN SMALL LETTER S WITH ACUTE
0xFB	0x016B	#	LATIN SMALL LETTER U WITH MACRON
0xFC	0x00FC	#	LATIN SMALL LETTER U WITH DIAERESIS
0xFD	0x017C	#	LATIN SMALL LETTER Z WITH DOT ABOVE
0xFE	0x017E	#	LATIN SMALL LETTER Z WITH CARON
0xFF	0x2019	#	RIGHT SINGLE QUOTATION MARK
"#

/-- src/generated/single_byte/iso-8859-13_tables.rs.inc:1-72 -/
noncomputable def iso_8859_13_source : List Text := lines! r#"// This file is auto-generated.  Please see `encoding_tables/single_byte/`
// from the root directory for the files that generate this.

use {DecodeResult, EncodeResult};

pub fn decode_to_str<'a>(
    input: &[u8],
    out_buffer: &'a mut [u8],
) -> DecodeResult<'a> {
    super::ascii_ext_decode_to_str(&DECODE_TABLE, input, out_buffer)
}

pub fn encode_from_str<'a>(
    input: &str,
    out_buffer: &'a mut [u8],
) -> EncodeResult<'a> {
    super::ascii_ext_encode_from_str(&ENCODE_TABLE, input, out_buffer)
}

const DECODE_TABLE: [char; 128] = [
    '\u{0080}','\u{0081}','\u{0082}','\u{0083}','\u{0084}','\u{0085}','\u{0086}','\u{0087}',
    '\u{0088}','\u{0089}','\u{008A}','\u{008B}','\u{008C}','\u{008D}','\u{008E}','\u{008F}',
    '\u{0090}','\u{0091}','\u{0092}','\u{0093}','\u{0094}','\u{0095}','\u{0096}','\u{0097}',
    '\u{0098}','\u{0099}','\u{009A}','\u{009B}','\u{009C}','\u{009D}','\u{009E}','\u{009F}',
    '\u{00A0}','\u{201D}','\u{00A2}','\u{00A3}','\u{00A4}','\u{201E}','\u{00A6}','\u{00A7}',
    '\u{00D8}','\u{00A9}','\u{0156}','\u{00AB}','\u{00AC}','\u{00AD}','\u{00AE}','\u{00C6}',
    '\u{00B0}','\u{00B1}','\u{00B2}','\u{00B3}','\u{201C}','\u{00B5}','\u{00B6}','\u{00B7}',
    '\u{00F8}','\u{00B9}','\u{0157}','\u{00BB}','\u{00BC}','\u{00BD}','\u{00BE}','\u{00E6}',
    '\u{0104}','\u{012E}','\u{0100}','\u{0106}','\u{00C4}','\u{00C5}','\u{0118}','\u{0112}',
    '\u{010C}','\u{00C9}','\u{0179}','\u{0116}','\u{0122}','\u{0136}','\u{012A}','\u{013B}',
    '\u{0160}','\u{0143}','\u{0145}','\u{00D3}','\u{014C}','\u{00D5}','\u{00D6}','\u{00D7}',
    '\u{0172}','\u{0141}','\u{015A}','\u{016A}','\u{00DC}','\u{017B}','\u{017D}','\u{00DF}',
    '\u{0105}','\u{012F}','\u{0101}','\u{0107}','\u{00E4}','\u{00E5}','\u{0119}','\u{0113}',
    '\u{010D}','\u{00E9}','\u{017A}','\u{0117}','\u{0123}','\u{0137}','\u{012B}','\u{013C}',
    '\u{0161}','\u{0144}','\u{0146}','\u{00F3}','\u{014D}','\u{00F5}','\u{00F6}','\u{00F7}',
    '\u{0173}','\u{0142}','\u{015B}','\u{016B}','\u{00FC}','\u{017C}','\u{017E}','\u{2019}',
];

const ENCODE_TABLE: [(char, u8); 128] = [
    ('\u{0080}', 0x80), ('\u{0081}', 0x81), ('\u{0082}', 0x82), ('\u{0083}', 0x83), 
    ('\u{0084}', 0x84), ('\u{0085}', 0x85), ('\u{0086}', 0x86), ('\u{0087}', 0x87), 
    ('\u{0088}', 0x88), ('\u{0089}', 0x89), ('\u{008A}', 0x8A), ('\u{008B}', 0x8B), 
    ('\u{008C}', 0x8C), ('\u{008D}', 0x8D), ('\u{008E}', 0x8E), ('\u{008F}', 0x8F), 
    ('\u{0090}', 0x90), ('\u{0091}', 0x91), ('\u{0092}', 0x92), ('\u{0093}', 0x93), 
    ('\u{0094}', 0x94), ('\u{0095}', 0x95), ('\u{0096}', 0x96), ('\u{0097}', 0x97), 
    ('\u{0098}', 0x98), ('\u{0099}', 0x99), ('\u{009A}', 0x9A), ('\u{009B}', 0x9B), 
    ('\u{009C}', 0x9C), ('\u{009D}', 0x9D), ('\u{009E}', 0x9E), ('\u{009F}', 0x9F), 
    ('\u{00A0}', 0xA0), ('\u{00A2}', 0xA2), ('\u{00A3}', 0xA3), ('\u{00A4}', 0xA4), 
    ('\u{00A6}', 0xA6), ('\u{00A7}', 0xA7), ('\u{00A9}', 0xA9), ('\u{00AB}', 0xAB), 
    ('\u{00AC}', 0xAC), ('\u{00AD}', 0xAD), ('\u{00AE}', 0xAE), ('\u{00B0}', 0xB0), 
    ('\u{00B1}', 0xB1), ('\u{00B2}', 0xB2), ('\u{00B3}', 0xB3), ('\u{00B5}', 0xB5), 
    ('\u{00B6}', 0xB6), ('\u{00B7}', 0xB7), ('\u{00B9}', 0xB9), ('\u{00BB}', 0xBB), 
    ('\u{00BC}', 0xBC), ('\u{00BD}', 0xBD), ('\u{00BE}', 0xBE), ('\u{00C4}', 0xC4), 
    ('\u{00C5}', 0xC5), ('\u{00C6}', 0xAF), ('\u{00C9}', 0xC9), ('\u{00D3}', 0xD3), 
    ('\u{00D5}', 0xD5), ('\u{00D6}', 0xD6), ('\u{00D7}', 0xD7), ('\u{00D8}', 0xA8), 
    ('\u{00DC}', 0xDC), ('\u{00DF}', 0xDF), ('\u{00E4}', 0xE4), ('\u{00E5}', 0xE5), 
    ('\u{00E6}', 0xBF), ('\u{00E9}', 0xE9), ('\u{00F3}', 0xF3), ('\u{00F5}', 0xF5), 
    ('\u{00F6}', 0xF6), ('\u{00F7}', 0xF7), ('\u{00F8}', 0xB8), ('\u{00FC}', 0xFC), 
    ('\u{0100}', 0xC2), ('\u{0101}', 0xE2), ('\u{0104}', 0xC0), ('\u{0105}', 0xE0), 
    ('\u{0106}', 0xC3), ('\u{0107}', 0xE3), ('\u{010C}', 0xC8), ('\u{010D}', 0xE8), 
    ('\u{0112}', 0xC7), ('\u{0113}', 0xE7), ('\u{0116}', 0xCB), ('\u{0117}', 0xEB), 
    ('\u{0118}', 0xC6), ('\u{0119}', 0xE6), ('\u{0122}', 0xCC), ('\u{0123}', 0xEC), 
    ('\u{012A}', 0xCE), ('\u{012B}', 0xEE), ('\u{012E}', 0xC1), ('\u{012F}', 0xE1), 
    ('\u{0136}', 0xCD), ('\u{0137}', 0xED), ('\u{013B}', 0xCF), ('\u{013C}', 0xEF), 
    ('\u{0141}', 0xD9), ('\u{0142}', 0xF9), ('\u{0143}', 0xD1), ('\u{0144}', 0xF1), 
    ('\u{0145}', 0xD2), ('\u{0146}', 0xF2), ('\u{014C}', 0xD4), ('\u{014D}', 0xF4), 
    ('\u{0156}', 0xAA), ('\u{0157}', 0xBA), ('\u{015A}', 0xDA), ('\u{015B}', 0xFA), 
    ('\u{0160}', 0xD0), ('\u{0161}', 0xF0), ('\u{016A}', 0xDB), ('\u{016B}', 0xFB), 
    ('\u{0172}', 0xD8), ('\u{0173}', 0xF8), ('\u{0179}', 0xCA), ('\u{017A}', 0xEA), 
    ('\u{017B}', 0xDD), ('\u{017C}', 0xFD), ('\u{017D}', 0xDE), ('\u{017E}', 0xFE), 
    ('\u{2019}', 0xFF), ('\u{201C}', 0xB4), ('\u{201D}', 0xA1), ('\u{201E}', 0xA5), 
];
"#

/-- encoding_tables/single_byte/ascii_ext/iso-8859-14.txt:1-293 -/
noncomputable def iso_8859_14_mapping : List Text := lines! r#"# 8859-14.TXT
# Date: 2015-12-02 22:05:00 GMT [KW]
# © 2015 Unicode®, Inc.
# For terms of use, see http://www.unicode.org/terms_of_use.html
#
#	Name:             ISO/IEC 8859-14:1998 to Unicode
#	Unicode version:  3.0
#	Table version:    2.0
#	Table format:     Format A
#	Date:             1999 July 27 (header updated: 2015 December 02)
#	Authors:          Markus Kuhn <http://www.cl.cam.ac.uk/~mgk25/>
#			  Ken Whistler <ken@unicode.org>
#
#	General notes:
#
#	This table contains the data the Unicode Consortium has on how
#       ISO/IEC 8859-14:1998 characters map into Unicode.
#
#	Format:  Three tab-separated columns
#		 Column #1 is the ISO/IEC 8859-14 code (in hex as 0xXX)
#		 Column #2 is the Unicode (in hex as 0xXXXX)
#		 Column #3 the Unicode name (follows a comment sign, '#')
#
#	The entries are in ISO/IEC 8859-14 order.
#
#	Version history
#   1.0 version: created
#   2.0 version: updates to copyright notice and terms of use; no
#       changes to character mappings
#
#	Updated versions of this file may be found in:
#		http://www.unicode.org/Public/MAPPINGS/
#
#	Any comments or problems, contact us at:
#       http://www.unicode.org/reporting.html
#
0x00	0x0000	#	NULL
0x01	0x0001	#	START OF HEADING
0x02	0x0002	#	START OF TEXT
0x03	0x0003	#	END OF TEXT
0x04	0x0004	#	END OF TRANSMISSION
0x05	0x0005	#	ENQUIRY
0x06	0x0006	#	ACKNOWLEDGE
0x07	0x0007	#	BELL
0x08	0x0008	#	BACKSPACE
0x09	0x0009	#	HORIZONTAL TABULATION
0x0A	0x000A	#	LINE FEED
0x0B	0x000B	#	VERTICAL TABULATION
0x0C	0x000C	#	FORM FEED
0x0D	0x000D	#	CARRIAGE RETURN
0x0E	0x000E	#	SHIFT OUT
0x0F	0x000F	#	SHIFT IN
0x10	0x0010	#	DATA LINK ESCAPE
0x11	0x0011	#	DEVICE CONTROL ONE
0x12	0x0012	#	DEVICE CONTROL TWO
0x13	0x0013	#	DEVICE CONTROL THREE
0x14	0x0014	#	DEVICE CONTROL FOUR
0x15	0x0015	#	NEGATIVE ACKNOWLEDGE
0x16	0x0016	#	SYNCHRONOUS IDLE
0x17	0x0017	#	END OF TRANSMISSION BLOCK
0x18	0x0018	#	CANCEL
0x19	0x0019	#	END OF MEDIUM
0x1A	0x001A	#	SUBSTITUTE
0x1B	0x001B	#	ESCAPE
0x1C	0x001C	#	FILE SEPARATOR
0x1D	0x001D	#	GROUP SEPARATOR
0x1E	0x001E	#	RECORD SEPARATOR
0x1F	0x001F	#	UNIT SEPARATOR
0x20	0x0020	#	SPACE
0x21	0x0021	#	EXCLAMATION MARK
0x22	0x0022	#	QUOTATION MARK
0x23	0x0023	#	NUMBER SIGN
0x24	0x0024	#	DOLLAR SIGN
0x25	0x0025	#	PERCENT SIGN
0x26	0x0026	#	AMPERSAND
0x27	0x0027	#	APOSTROPHE
0x28	0x0028	#	LEFT PARENTHESIS
0x29	0x0029	#	RIGHT PARENTHESIS
0x2A	0x002A	#	ASTERISK
0x2B	0x002B	#	PLUS SIGN
0x2C	0x002C	#	COMMA
0x2D	0x002D	#	HYPHEN-MINUS
0x2E	0x002E	#	FULL STOP
0x2F	0x002F	#	SOLIDUS
0x30	0x0030	#	DIGIT ZERO
0x31	0x0031	#	DIGIT ONE
0x32	0x0032	#	DIGIT TWO
0x33	0x0033	#	DIGIT THREE
0x34	0x0034	#	DIGIT FOUR
0x35	0x0035	#	DIGIT FIVE
0x36	0x0036	#	DIGIT SIX
0x37	0x0037	#	DIGIT SEVEN
0x38	0x0038	#	DIGIT EIGHT
0x39	0x0039	#	DIGIT NINE
0x3A	0x003A	#	COLON
0x3B	0x003B	#	SEMICOLON
0x3C	0x003C	#	LESS-THAN SIGN
0x3D	0x003D	#	EQUALS SIGN
0x3E	0x003E	#	GREATER-THAN SIGN
0x3F	0x003F	#	QUESTION MARK
0x40	0x0040	#	COMMERCIAL AT
0x41	0x0041	#	LATIN CAPITAL LETTER A
0x42	0x0042	#	LATIN CAPITAL LETTER B
0x43	0x0043	#	LATIN CAPITAL LETTER C
0x44	0x0044	#	LATIN CAPITAL LETTER D
0x45	0x0045	#	LATIN CAPITAL LETTER E
0x46	0x0046	#	LATIN CAPITAL LETTER F
0x47	0x0047	#	LATIN CAPITAL LETTER G
0x48	0x0048	#	LATIN CAPITAL LETTER H
0x49	0x0049	#	LATIN CAPITAL LETTER I
0x4A	0x004A	#	LATIN CAPITAL LETTER J
0x4B	0x004B	#	LATIN CAPITAL LETTER K
0x4C	0x004C	#	LATIN CAPITAL LETTER L
0x4D	0x004D	#	LATIN CAPITAL LETTER M
0x4E	0x004E	#	LATIN CAPITAL LETTER N
0x4F	0x004F	#	LATIN CAPITAL LETTER O
0x50	0x0050	#	LATIN CAPITAL LETTER P
0x51	0x0051	#	LATIN CAPITAL LETTER Q
0x52	0x0052	#	LATIN CAPITAL LETTER R
0x53	0x0053	#	LATIN CAPITAL LETTER S
0x54	0x0054	#	LATIN CAPITAL LETTER T
0x55	0x0055	#	LATIN CAPITAL LETTER U
0x56	0x0056	#	LATIN CAPITAL LETTER V
0x57	0x0057	#	LATIN CAPITAL LETTER W
0x58	0x0058	#	LATIN CAPITAL LETTER X
0x59	0x0059	#	LATIN CAPITAL LETTER Y
0x5A	0x005A	#	LATIN CAPITAL LETTER Z
0x5B	0x005B	#	LEFT SQUARE BRACKET
0x5C	0x005C	#	REVERSE SOLIDUS
0x5D	0x005D	#	RIGHT SQUARE BRACKET
0x5E	0x005E	#	CIRCUMFLEX ACCENT
0x5F	0x005F	#	LOW LINE
0x60	0x0060	#	GRAVE ACCENT
0x61	0x0061	#	LATIN SMALL LETTER A
0x62	0x0062	#	LATIN SMALL LETTER B
0x63	0x0063	#	LATIN SMALL LETTER C
0x64	0x0064	#	LATIN SMALL LETTER D
0x65	0x0065	#	LATIN SMALL LETTER E
0x66	0x0066	#	LATIN SMALL LETTER F
0x67	0x0067	#	LATIN SMALL LETTER G
0x68	0x0068	#	LATIN SMALL LETTER H
0x69	0x0069	#	LATIN SMALL LETTER I
0x6A	0x006A	#	LATIN SMALL LETTER J
0x6B	0x006B	#	LATIN SMALL LETTER K
0x6C	0x006C	#	LATIN SMALL LETTER L
0x6D	0x006D	#	LATIN SMALL LETTER M
0x6E	0x006E	#	LATIN SMALL LETTER N
0x6F	0x006F	#	LATIN SMALL LETTER O
0x70	0x0070	#	LATIN SMALL LETTER P
0x71	0x0071	#	LATIN SMALL LETTER Q
0x72	0x0072	#	LATIN SMALL LETTER R
0x73	0x0073	#	LATIN SMALL LETTER S
0x74	0x0074	#	LATIN SMALL LETTER T
0x75	0x0075	#	LATIN SMALL LETTER U
0x76	0x0076	#	LATIN SMALL LETTER V
0x77	0x0077	#	LATIN SMALL LETTER W
0x78	0x0078	#	LATIN SMALL LETTER X
0x79	0x0079	#	LATIN SMALL LETTER Y
0x7A	0x007A	#	LATIN SMALL LETTER Z
0x7B	0x007B	#	LEFT CURLY BRACKET
0x7C	0x007C	#	VERTICAL LINE
0x7D	0x007D	#	RIGHT CURLY BRACKET
0x7E	0x007E	#	TILDE
0x7F	0x007F	#	DELETE
0x80	0x0080	#	<control>
0x81	0x0081	#	<control>
0x82	0x0082	#	<control>
0x83	0x0083	#	<control>
0x84	0x0084	#	<control>
0x85	0x0085	#	<control>
0x86	0x0086	#	<control>
0x87	0x0087	#	<control>
0x88	0x0088	#	<control>
0x89	0x0089	#	<control>
0x8A	0x008A	#	<control>
0x8B	0x008B	#	<control>
0x8C	0x008C	#	<control>
0x8D	0x008D	#	<control>
0x8E	0x008E	#	<control>
0x8F	0x008F	#	<control>
0x90	0x0090	#	<control>
0x91	0x0091	#	<control>
0x92	0x0092	#	<control>
0x93	0x0093	#	<control>
0x94	0x0094	#	<control>
0x95	0x0095	#	<control>
0x96	0x0096	#	<control>
0x97	0x0097	#	<control>
0x98	0x0098	#	<control>
0x99	0x0099	#	<control>
0x9A	0x009A	#	<control>
0x9B	0x009B	#	<control>
0x9C	0x009C	#	<control>
0x9D	0x009D	#	<control>
0x9E	0x009E	#	<control>
0x9F	0x009F	#	<control>
0xA0	0x00A0	#	NO-BREAK SPACE
0xA1	0x1E02	#	LATIN CAPITAL LETTER B WITH DOT ABOVE
0xA2	0x1E03	#	LATIN SMALL LETTER B WITH DOT ABOVE
0xA3	0x00A3	#	POUND SIGN
0xA4	0x010A	#	LATIN CAPITAL LETTER C WITH DOT ABOVE
0xA5	0x010B	#	LATIN SMALL LETTER C WITH DOT ABOVE
0xA6	0x1E0A	#	LATIN CAPITAL LETTER D WITH DOT ABOVE
0xA7	0x00A7	#	SECTION SIGN
0xA8	0x1E80	#	LATIN CAPITAL LETTER W WITH GRAVE
0xA9	0x00A9	#	COPYRIGHT SIGN
0xAA	0x1E82	#	LATIN CAPITAL LETTER W WITH ACUTE
0xAB	0x1E0B	#	LATIN SMALL LETTER D WITH DOT ABOVE
0xAC	0x1EF2	#	LATIN CAPITAL LETTER Y WITH GRAVE
0xAD	0x00AD	#	SOFT HYPHEN
0xAE	0x00AE	#	REGISTERED SIGN
0xAF	0x0178	#	LATIN CAPITAL LETTER Y WITH DIAERESIS
0xB0	0x1E1E	#	LATIN CAPITAL LETTER F WITH DOT ABOVE
0xB1	0x1E1F	#	LATIN SMALL LETTER F WITH DOT ABOVE
0xB2	0x0120	#	LATIN CAPITAL LETTER G WITH DOT ABOVE
0xB3	0x0121	#	LATIN SMALL LETTER G WITH DOT ABOVE
0xB4	0x1E40	#	LATIN CAPITAL LETTER M WITH DOT ABOVE
0xB5	0x1E41	#	LATIN SMALL LETTER M WITH DOT ABOVE
0xB6	0x00B6	#	PILCROW SIGN
0xB7	0x1E56	#	LATIN CAPITAL LETTER P WITH DOT ABOVE
0xB8	0x1E81	#	LATIN SMALL LETTER W WITH GRAVE
0xB9	0x1E57	#	LATIN SMALL LETTER P WITH DOT ABOVE
0xBA	0x1E83	#	LATIN SMALL LETTER W WITH ACUTE
0xBB	0x1E60	#	LATIN CAPITAL LETTER S WITH DOT ABOVE
0xBC	0x1EF3	#	LATIN SMALL LETTER Y WITH GRAVE
0xBD	0x1E84	#	LATIN CAPITAL LETTER W WITH DIAERESIS
0xBE	0x1E85	#	LATIN SMALL LETTER W WITH DIAERESIS
0xBF	0x1E61	#	LATIN SMALL LETTER S WITH DOT ABOVE
0xC0	0x00C0	#	LATIN CAPITAL LETTER A WITH GRAVE
0xC1	0x00C1	#	LATIN CAPITAL LETTER A WITH ACUTE
0xC2	0x00C2	#	LATIN CAPITAL LETTER A WITH CIRCUMFLEX
0xC3	0x00C3	#	LATIN CAPITAL LETTER A WITH TILDE
0xC4	0x00C4	#	LATIN CAPITAL LETTER A WITH DIAERESIS
0xC5	0x00C5	#	LATIN CAPITAL LETTER A WITH RING ABOVE
0xC6	0x00C6	#	LATIN CAPITAL LETTER AE
0xC7	0x00C7	#	LATIN CAPITAL LETTER C WITH CEDILLA
0xC8	0x00C8	#	LATIN CAPITAL LETTER E WITH GRAVE
0xC9	0x00C9	#	LATIN CAPITAL LETTER E WITH ACUTE
0xCA	0x00CA	#	LATIN CAPITAL LETTER E WITH CIRCUMFLEX
0xCB	0x00CB	#	LATIN CAPITAL LETTER E WITH DIAERESIS
0xCC	0x00CC	#	LATIN CAPITAL LETTER I WITH GRAVE
0xCD	0x00CD	#	LATIN CAPITAL LETTER I WITH ACUTE
0xCE	0x00CE	#	LATIN CAPITAL LETTER I WITH CIRCUMFLEX
0xCF	0x00CF	#	LATIN CAPITAL LETTER I WITH DIAERESIS
0xD0	0x0174	#	LATIN CAPITAL LETTER W WITH CIRCUMFLEX
0xD1	0x00D1	#	LATIN CAPITAL LETTER N WITH TILDE
0xD2	0x00D2	#	LATIN CAPITAL LETTER O WITH GRAVE
0xD3	0x00D3	#	LATIN CAPITAL LETTER O WITH ACUTE
0xD4	0x00D4	#	LATIN CAPITAL LETTER O WITH CIRCUMFLEX
0xD5	0x00D5	#	LATIN CAPITAL LETTER O WITH TILDE
0xD6	0x00D6	#	LATIN CAPITAL LETTER O WITH DIAERESIS
0xD7	0x1E6A	#	LATIN CAPITAL LETTER T WITH DOT ABOVE
0xD8	0x00D8	#	LATIN CAPITAL LETTER O WITH STROKE
0xD9	0x00D9	#	LATIN CAPITAL LETTER U WITH GRAVE
0xDA	0x00DA	#	LATIN CAPITAL LETTER U WITH ACUTE
0xDB	0x00DB	#	LATIN CAPITAL LETTER U WITH CIRCUMFLEX
0xDC	0x00DC	#	LATIN CAPITAL LETTER U WITH DIAERESIS
0xDD	0x00DD	#	LATIN CAPITAL LETTER Y WITH ACUTE
0xDE	0x0176	#	LATIN CAPITAL LETTER Y WITH CIRCUMFLEX
0xDF	0x00DF	#	LATIN SMALL LETTER SHARP S
0xE0	0x00E0	#	LATIN SMALL LETTER A WITH GRAVE
0xE1	0x00E1	#	LATIN SMALL LETTER A WITH ACUTE
0xE2	0x00E2	#	LATIN SMALL LETTER A WITH CIRCUMFLEX
0xE3	0x00E3	#	LATIN SMALL LETTER A WITH TILDE
0xE4	0x00E4	#	LATIN SMALL LETTER A WITH DIAERESIS
0xE5	0x00E5	#	LATIN SMALL LETTER A WITH RING ABOVE
0xE6	0x00E6	#	LATIN SMALL LETTER AE
0xE7	0x00E7	#	LATIN SMALL LETTER C WITH CEDILLA
0xE8	0x00E8	#	LATIN SMALL LETTER E WITH GRAVE
0xE9	0x00E9	#	LATIN SMALL LETTER E WITH ACUTE
0xEA	0x00EA	#	LATIN SMALL LETTER E WITH CIRCUMFLEX
0xEB	0x00EB	#	LATIN SMALL LETTER E WITH DIAERESIS
0xEC	0x00EC	#	LATIN SMALL LETTER I WITH GRAVE
0xED	0x00ED	#	LATIN SMALL LETTER I WITH ACUTE
0xEE	0x00EE	#	LATIN SMALL LETTER I WITH CIRCUMFLEX
0xEF	0x00EF	#	LATIN SMALL LETTER I WITH DIAERESIS
0xF0	0x0175	#	LATIN SMALL LETTER W WITH CIRCUMFLEX
0xF1	0x00F1	#	LATIN SMALL LETTER N WITH TILDE
0xF2	0x00F2	#	LATIN SMALL LETTER O WITH GRAVE
0xF3	0x00F3	#	LATIN SMALL LETTER O WITH ACUTE
0xF4	0x00F4	#	LATIN SMALL LETTER O WITH CIRCUMFLEX
0xF5	0x00F5	#	LATIN SMALL LETTER O WITH TILDE
0xF6	0x00F6	#	LATIN SMALL LETTER O WITH DIAERESIS
0xF7	0x1E6B	#	LATIN SMALL LETTER T WITH DOT ABOVE
0xF8	0x00F8	#	LATIN SMALL LETTER O WITH STROKE
0xF9	0x00F9	#	LATIN SMALL LETTER U WITH GRAVE
0xFA	0x00FA	#	LATIN SMALL LETTER U WITH ACUTE
0xFB	0x00FB	#	LATIN SMALL LETTER U WITH CIRCUMFLEX
0xFC	0x00FC	#	LATIN SMALL LETTER U WITH DIAERESIS
0xFD	0x00FD	#	LATIN SMALL LETTER Y WITH ACUTE
0xFE	0x0177	#	LATIN SMALL LETTER Y WITH CIRCUMFLEX
0xFF	0x00FF	#	LATIN SMALL LETTER Y WITH DIAERESIS

"#

/-- src/generated/single_byte/iso-8859-14_tables.rs.inc:1-72 -/
noncomputable def iso_8859_14_source : List Text := lines! r#"// This file is auto-generated.  Please see `encoding_tables/single_byte/`
// from the root directory for the files that generate this.

use {DecodeResult, EncodeResult};

pub fn decode_to_str<'a>(
    input: &[u8],
    out_buffer: &'a mut [u8],
) -> DecodeResult<'a> {
    super::ascii_ext_decode_to_str(&DECODE_TABLE, input, out_buffer)
}

pub fn encode_from_str<'a>(
    input: &str,
    out_buffer: &'a mut [u8],
) -> EncodeResult<'a> {
    super::ascii_ext_encode_from_str(&ENCODE_TABLE, input, out_buffer)
}

const DECODE_TABLE: [char; 128] = [
    '\u{0080}','\u{0081}','\u{0082}','\u{0083}','\u{0084}','\u{0085}','\u{0086}','\u{0087}',
    '\u{0088}','\u{0089}','\u{008A}','\u{008B}','\u{008C}','\u{008D}','\u{008E}','\u{008F}',
    '\u{0090}','\u{0091}','\u{0092}','\u{0093}','\u{0094}','\u{0095}','\u{0096}','\u{0097}',
    '\u{0098}','\u{0099}','\u{009A}','\u{009B}','\u{009C}','\u{009D}','\u{009E}','\u{009F}',
    '\u{00A0}','\u{1E02}','\u{1E03}','\u{00A3}','\u{010A}','\u{010B}','\u{1E0A}','\u{00A7}',
    '\u{1E80}','\u{00A9}','\u{1E82}','\u{1E0B}','\u{1EF2}','\u{00AD}','\u{00AE}','\u{0178}',
    '\u{1E1E}','\u{1E1F}','\u{0120}','\u{0121}','\u{1E40}','\u{1E41}','\u{00B6}','\u{1E56}',
    '\u{1E81}','\u{1E57}','\u{1E83}','\u{1E60}','\u{1EF3}','\u{1E84}','\u{1E85}','\u{1E61}',
    '\u{00C0}','\u{00C1}','\u{00C2}','\u{00C3}','\u{00C4}','\u{00C5}','\u{00C6}','\u{00C7}',
    '\u{00C8}','\u{00C9}','\u{00CA}','\u{00CB}','\u{00CC}','\u{00CD}','\u{00CE}','\u{00CF}',
    '\u{0174}','\u{00D1}','\u{00D2}','\u{00D3}','\u{00D4}','\u{00D5}','\u{00D6}','\u{1E6A}',
    '\u{00D8}','\u{00D9}','\u{00DA}','\u{00DB}','\u{00DC}','\u{00DD}','\u{0176}','\u{00DF}',
    '\u{00E0}','\u{00E1}','\u{00E2}','\u{00E3}','\u{00E4}','\u{00E5}','\u{00E6}','\u{00E7}',
    '\u{00E8}','\u{00E9}','\u{00EA}','\u{00EB}','\u{00EC}','\u{00ED}','\u{00EE}','\u{00EF}',
    '\u{0175}','\u{00F1}','\u{00F2}','\u{00F3}','\u{00F4}','\u{00F5}','\u{00F6}','\u{1E6B}',
    '\u{00F8}','\u{00F9}','\u{00FA}','\u{00FB}','\u{00FC}','\u{00FD}','\u{0177}','\u{00FF}',
];

const ENCODE_TABLE: [(char, u8); 128] = [
    ('\u{0080}', 0x80), ('\u{0081}', 0x81), ('\u{0082}', 0x82), ('\u{0083}', 0x83), 
    ('\u{0084}', 0x84), ('\u{0085}', 0x85), ('\u{0086}', 0x86), ('\u{0087}', 0x87), 
    ('\u{0088}', 0x88), ('\u{0089}', 0x89), ('\u{008A}', 0x8A), ('\u{008B}', 0x8B), 
    ('\u{008C}', 0x8C), ('\u{008D}', 0x8D), ('\u{008E}', 0x8E), ('\u{008F}', 0x8F), 
    ('\u{0090}', 0x90), ('\u{0091}', 0x91), ('\u{0092}', 0x92), ('\u{0093}', 0x93), 
    ('\u{0094}', 0x94), ('\u{0095}', 0x95), ('\u{0096}', 0x96), ('\u{0097}', 0x97), 
    ('\u{0098}', 0x98), ('\u{0099}', 0x99), ('\u{009A}', 0x9A), ('\u{009B}', 0x9B), 
    ('\u{009C}', 0x9C), ('\u{009D}', 0x9D), ('\u{009E}', 0x9E), ('\u{009F}', 0x9F), 
    ('\u{00A0}', 0xA0), ('\u{00A3}', 0xA3), ('\u{00A7}', 0xA7), ('\u{00A9}', 0xA9), 
    ('\u{00AD}', 0xAD), ('\u{00AE}', 0xAE), ('\u{00B6}', 0xB6), ('\u{00C0}', 0xC0), 
    ('\u{00C1}', 0xC1), ('\u{00C2}', 0xC2), ('\u{00C3}', 0xC3), ('\u{00C4}', 0xC4), 
    ('\u{00C5}', 0xC5), ('\u{00C6}', 0xC6), ('\u{00C7}', 0xC7), ('\u{00C8}', 0xC8), 
    ('\u{00C9}', 0xC9), ('\u{00CA}', 0xCA), ('\u{00CB}', 0xCB), ('\u{00CC}', 0xCC), 
    ('\u{00CD}', 0xCD), ('\u{00CE}', 0xCE), ('\u{00CF}', 0xCF), ('\u{00D1}', 0xD1), 
    ('\u{00D2}', 0xD2), ('\u{00D3}', 0xD3), ('\u{00D4}', 0xD4), ('\u{00D5}', 0xD5), 
    ('\u{00D6}', 0xD6), ('\u{00D8}', 0xD8), ('\u{00D9}', 0xD9), ('\u{00DA}', 0xDA), 
    ('\u{00DB}', 0xDB), ('\u{00DC}', 0xDC), ('\u{00DD}', 0xDD), ('\u{00DF}', 0xDF), 
    ('\u{00E0}', 0xE0), ('\u{00E1}', 0xE1), ('\u{00E2}', 0xE2), ('\u{00E3}', 0xE3), 
    ('\u{00E4}', 0xE4), ('\u{00E5}', 0xE5), ('\u{00E6}', 0xE6), ('\u{00E7}', 0xE7), 
    ('\u{00E8}', 0xE8), ('\u{00E9}', 0xE9), ('\u{00EA}', 0xEA), ('\u{00EB}', 0xEB), 
    ('\u{00EC}', 0xEC), ('\u{00ED}', 0xED), ('\u{00EE}', 0xEE), ('\u{00EF}', 0xEF), 
    ('\u{00F1}', 0xF1), ('\u{00F2}', 0xF2), ('\u{00F3}', 0xF3), ('\u{00F4}', 0xF4), 
    ('\u{00F5}', 0xF5), ('\u{00F6}', 0xF6), ('\u{00F8}', 0xF8), ('\u{00F9}', 0xF9), 
    ('\u{00FA}', 0xFA), ('\u{00FB}', 0xFB), ('\u{00FC}', 0xFC), ('\u{00FD}', 0xFD), 
    ('\u{00FF}', 0xFF), ('\u{010A}', 0xA4), ('\u{010B}', 0xA5), ('\u{0120}', 0xB2), 
    ('\u{0121}', 0xB3), ('\u{0174}', 0xD0), ('\u{0175}', 0xF0), ('\u{0176}', 0xDE), 
    ('\u{0177}', 0xFE), ('\u{0178}', 0xAF), ('\u{1E02}', 0xA1), ('\u{1E03}', 0xA2), 
    ('\u{1E0A}', 0xA6), ('\u{1E0B}', 0xAB), ('\u{1E1E}', 0xB0), ('\u{1E1F}', 0xB1), 
    ('\u{1E40}', 0xB4), ('\u{1E41}', 0xB5), ('\u{1E56}', 0xB7), ('\u{1E57}', 0xB9), 
    ('\u{1E60}', 0xBB), ('\u{1E61}', 0xBF), ('\u{1E6A}', 0xD7), ('\u{1E6B}', 0xF7), 
    ('\u{1E80}', 0xA8), ('\u{1E81}', 0xB8), ('\u{1E82}', 0xAA), ('\u{1E83}', 0xBA), 
    ('\u{1E84}', 0xBD), ('\u{1E85}', 0xBE), ('\u{1EF2}', 0xAC), ('\u{1EF3}', 0xBC), 
];
"#

/-- encoding_tables/single_byte/ascii_ext/iso-8859-15.txt:1-295 -/
noncomputable def iso_8859_15_mapping : List Text := lines! r#"# 8859-15.TXT
# Date: 2015-12-02 22:06:00 GMT [KW]
# © 2015 Unicode®, Inc.
# For terms of use, see http://www.unicode.org/terms_of_use.html
#
#	Name:             ISO/IEC 8859-15:1999 to Unicode
#	Unicode version:  3.0
#	Table version:    2.0
#	Table format:     Format A
#	Date:             1999 July 27 (header updated: 2015 December 02)
#	Authors:          Markus Kuhn <http://www.cl.cam.ac.uk/~mgk25/>
#			  Ken Whistler <ken@unicode.org>
#
#	General notes:
#
#	This table contains the data the Unicode Consortium has on how
#       ISO/IEC 8859-15:1999 characters map into Unicode.
#
#	Format:  Three tab-separated columns
#		 Column #1 is the ISO/IEC 8859-15 code (in hex as 0xXX)
#		 Column #2 is the Unicode (in hex as 0xXXXX)
#		 Column #3 the Unicode name (follows a comment sign, '#')
#
#	The entries are in ISO/IEC 8859-15 order.
#
#	Version history
#
#	Version history
#   1.0 version: created
#   2.0 version: updates to copyright notice and terms of use; no
#       changes to character mappings
#
#	Updated versions of this file may be found in:
#		http://www.unicode.org/Public/MAPPINGS/
#
#	Any comments or problems, contact us at:
#       http://www.unicode.org/reporting.html
#
0x00	0x0000	#	NULL
0x01	0x0001	#	START OF HEADING
0x02	0x0002	#	START OF TEXT
0x03	0x0003	#	END OF TEXT
0x04	0x0004	#	END OF TRANSMISSION
0x05	0x0005	#	ENQUIRY
0x06	0x0006	#	ACKNOWLEDGE
0x07	0x0007	#	BELL
0x08	0x0008	#	BACKSPACE
0x09	0x0009	#	HORIZONTAL TABULATION
0x0A	0x000A	#	LINE FEED
0x0B	0x000B	#	VERTICAL TABULATION
0x0C	0x000C	#	FORM FEED
0x0D	0x000D	#	CARRIAGE RETURN
0x0E	0x000E	#	SHIFT OUT
0x0F	0x000F	#	SHIFT IN
0x10	0x0010	#	DATA LINK ESCAPE
0x11	0x0011	#	DEVICE CONTROL ONE
0x12	0x0012	#	DEVICE CONTROL TWO
0x13	0x0013	#	DEVICE CONTROL THREE
0x14	0x0014	#	DEVICE CONTROL FOUR
0x15	0x0015	#	NEGATIVE ACKNOWLEDGE
0x16	0x0016	#	SYNCHRONOUS IDLE
0x17	0x0017	#	END OF TRANSMISSION BLOCK
0x18	0x0018	#	CANCEL
0x19	0x0019	#	END OF MEDIUM
0x1A	0x001A	#	SUBSTITUTE
0x1B	0x001B	#	ESCAPE
0x1C	0x001C	#	FILE SEPARATOR
0x1D	0x001D	#	GROUP SEPARATOR
0x1E	0x001E	#	RECORD SEPARATOR
0x1F	0x001F	#	UNIT SEPARATOR
0x20	0x0020	#	SPACE
0x21	0x0021	#	EXCLAMATION MARK
0x22	0x0022	#	QUOTATION MARK
0x23	0x0023	#	NUMBER SIGN
0x24	0x0024	#	DOLLAR SIGN
0x25	0x0025	#	PERCENT SIGN
0x26	0x0026	#	AMPERSAND
0x27	0x0027	#	APOSTROPHE
0x28	0x0028	#	LEFT PARENTHESIS
0x29	0x0029	#	RIGHT PARENTHESIS
0x2A	0x002A	#	ASTERISK
0x2B	0x002B	#	PLUS SIGN
0x2C	0x002C	#	COMMA
0x2D	0x002D	#	HYPHEN-MINUS
0x2E	0x002E	#	FULL STOP
0x2F	0x002F	#	SOLIDUS
0x30	0x0030	#	DIGIT ZERO
0x31	0x0031	#	DIGIT ONE
0x32	0x0032	#	DIGIT TWO
0x33	0x0033	#	DIGIT THREE
0x34	0x0034	#	DIGIT FOUR
0x35	0x0035	#	DIGIT FIVE
0x36	0x0036	#	DIGIT SIX
0x37	0x0037	#	DIGIT SEVEN
0x38	0x0038	#	DIGIT EIGHT
0x39	0x0039	#	DIGIT NINE
0x3A	0x003A	#	COLON
0x3B	0x003B	#	SEMICOLON
0x3C	0x003C	#	LESS-THAN SIGN
0x3D	0x003D	#	EQUALS SIGN
0x3E	0x003E	#	GREATER-THAN SIGN
0x3F	0x003F	#	QUESTION MARK
0x40	0x0040	#	COMMERCIAL AT
0x41	0x0041	#	LATIN CAPITAL LETTER A
0x42	0x0042	#	LATIN CAPITAL LETTER B
0x43	0x0043	#	LATIN CAPITAL LETTER C
0x44	0x0044	#	LATIN CAPITAL LETTER D
0x45	0x0045	#	LATIN CAPITAL LETTER E
0x46	0x0046	#	LATIN CAPITAL LETTER F
0x47	0x0047	#	LATIN CAPITAL LETTER G
0x48	0x0048	#	LATIN CAPITAL LETTER H
0x49	0x0049	#	LATIN CAPITAL LETTER I
0x4A	0x004A	#	LATIN CAPITAL LETTER J
0x4B	0x004B	#	LATIN CAPITAL LETTER K
0x4C	0x004C	#	LATIN CAPITAL LETTER L
0x4D	0x004D	#	LATIN CAPITAL LETTER M
0x4E	0x004E	#	LATIN CAPITAL LETTER N
0x4F	0x004F	#	LATIN CAPITAL LETTER O
0x50	0x0050	#	LATIN CAPITAL LETTER P
0x51	0x0051	#	LATIN CAPITAL LETTER Q
0x52	0x0052	#	LATIN CAPITAL LETTER R
0x53	0x0053	#	LATIN CAPITAL LETTER S
0x54	0x0054	#	LATIN CAPITAL LETTER T
0x55	0x0055	#	LATIN CAPITAL LETTER U
0x56	0x0056	#	LATIN CAPITAL LETTER V
0x57	0x0057	#	LATIN CAPITAL LETTER W
0x58	0x0058	#	LATIN CAPITAL LETTER X
0x59	0x0059	#	LATIN CAPITAL LETTER Y
0x5A	0x005A	#	LATIN CAPITAL LETTER Z
0x5B	0x005B	#	LEFT SQUARE BRACKET
0x5C	0x005C	#	REVERSE SOLIDUS
0x5D	0x005D	#	RIGHT SQUARE BRACKET
0x5E	0x005E	#	CIRCUMFLEX ACCENT
0x5F	0x005F	#	LOW LINE
0x60	0x0060	#	GRAVE ACCENT
0x61	0x0061	#	LATIN SMALL LETTER A
0x62	0x0062	#	LATIN SMALL LETTER B
0x63	0x0063	#	LATIN SMALL LETTER C
0x64	0x0064	#	LATIN SMALL LETTER D
0x65	0x0065	#	LATIN SMALL LETTER E
0x66	0x0066	#	LATIN SMALL LETTER F
0x67	0x0067	#	LATIN SMALL LETTER G
0x68	0x0068	#	LATIN SMALL LETTER H
0x69	0x0069	#	LATIN SMALL LETTER I
0x6A	0x006A	#	LATIN SMALL LETTER J
0x6B	0x006B	#	LATIN SMALL LETTER K
0x6C	0x006C	#	LATIN SMALL LETTER L
0x6D	0x006D	#	LATIN SMALL LETTER M
0x6E	0x006E	#	LATIN SMALL LETTER N
0x6F	0x006F	#	LATIN SMALL LETTER O
0x70	0x0070	#	LATIN SMALL LETTER P
0x71	0x0071	#	LATIN SMALL LETTER Q
0x72	0x0072	#	LATIN SMALL LETTER R
0x73	0x0073	#	LATIN SMALL LETTER S
0x74	0x0074	#	LATIN SMALL LETTER T
0x75	0x0075	#	LATIN SMALL LETTER U
0x76	0x0076	#	LATIN SMALL LETTER V
0x77	0x0077	#	LATIN SMALL LETTER W
0x78	0x0078	#	LATIN SMALL LETTER X
0x79	0x0079	#	LATIN SMALL LETTER Y
0x7A	0x007A	#	LATIN SMALL LETTER Z
0x7B	0x007B	#	LEFT CURLY BRACKET
0x7C	0x007C	#	VERTICAL LINE
0x7D	0x007D	#	RIGHT CURLY BRACKET
0x7E	0x007E	#	TILDE
0x7F	0x007F	#	DELETE
0x80	0x0080	#	<control>
0x81	0x0081	#	<control>
0x82	0x0082	#	<control>
0x83	0x0083	#	<control>
0x84	0x0084	#	<control>
0x85	0x0085	#	<control>
0x86	0x0086	#	<control>
0x87	0x0087	#	<control>
0x88	0x0088	#	<control>
0x89	0x0089	#	<control>
0x8A	0x008A	#	<control>
0x8B	0x008B	#	<control>
0x8C	0x008C	#	<control>
0x8D	0x008D	#	<control>
0x8E	0x008E	#	<control>
0x8F	0x008F	#	<control>
0x90	0x0090	#	<control>
0x91	0x0091	#	<control>
0x92	0x0092	#	<control>
0x93	0x0093	#	<control>
0x94	0x0094	#	<control>
0x95	0x0095	#	<control>
0x96	0x0096	#	<control>
0x97	0x0097	#	<control>
0x98	0x0098	#	<control>
0x99	0x0099	#	<control>
0x9A	0x009A	#	<control>
0x9B	0x009B	#	<control>
0x9C	0x009C	#	<control>
0x9D	0x009D	#	<control>
0x9E	0x009E	#	<control>
0x9F	0x009F	#	<control>
0xA0	0x00A0	#	NO-BREAK SPACE
0xA1	0x00A1	#	INVERTED EXCLAMATION MARK
0xA2	0x00A2	#	CENT SIGN
0xA3	0x00A3	#	POUND SIGN
0xA4	0x20AC	#	EURO SIGN
0xA5	0x00A5	#	YEN SIGN
0xA6	0x0160	#	LATIN CAPITAL LETTER S WITH CARON
0xA7	0x00A7	#	SECTION SIGN
0xA8	0x0161	#	LATIN SMALL LETTER S WITH CARON
0xA9	0x00A9	#	COPYRIGHT SIGN
0xAA	0x00AA	#	FEMININE ORDINAL INDICATOR
0xAB	0x00AB	#	LEFT-POINTING DOUBLE ANGLE QUOTATION MARK
0xAC	0x00AC	#	NOT SIGN
0xAD	0x00AD	#	SOFT HYPHEN
0xAE	0x00AE	#	REGISTERED SIGN
0xAF	0x00AF	#	MACRON
0xB0	0x00B0	#	DEGREE SIGN
0xB1	0x00B1	#	PLUS-MINUS SIGN
0xB2	0x00B2	#	SUPERSCRIPT TWO
0xB3	0x00B3	#	SUPERSCRIPT THREE
0xB4	0x017D	#	LATIN CAPITAL LETTER Z WITH CARON
0xB5	0x00B5	#	MICRO SIGN
0xB6	0x00B6	#	PILCROW SIGN
0xB7	0x00B7	#	MIDDLE DOT
0xB8	0x017E	#	LATIN SMALL LETTER Z WITH CARON
0xB9	0x00B9	#	SUPERSCRIPT ONE
0xBA	0x00BA	#	MASCULINE ORDINAL INDICATOR
0xBB	0x00BB	#	RIGHT-POINTING DOUBLE ANGLE QUOTATION MARK
0xBC	0x0152	#	LATIN CAPITAL LIGATURE OE
0xBD	0x0153	#	LATIN SMALL LIGATURE OE
0xBE	0x0178	#	LATIN CAPITAL LETTER Y WITH DIAERESIS
0xBF	0x00BF	#	INVERTED QUESTION MARK
0xC0	0x00C0	#	LATIN CAPITAL LETTER A WITH GRAVE
0xC1	0x00C1	#	LATIN CAPITAL LETTER A WITH ACUTE
0xC2	0x00C2	#	LATIN CAPITAL LETTER A WITH CIRCUMFLEX
0xC3	0x00C3	#	LATIN CAPITAL LETTER A WITH TILDE
0xC4	0x00C4	#	LATIN CAPITAL LETTER A WITH DIAERESIS
0xC5	0x00C5	#	LATIN CAPITAL LETTER A WITH RING ABOVE
0xC6	0x00C6	#	LATIN CAPITAL LETTER AE
0xC7	0x00C7	#	LATIN CAPITAL LETTER C WITH CEDILLA
0xC8	0x00C8	#	LATIN CAPITAL LETTER E WITH GRAVE
0xC9	0x00C9	#	LATIN CAPITAL LETTER E WITH ACUTE
0xCA	0x00CA	#	LATIN CAPITAL LETTER E WITH CIRCUMFLEX
0xCB	0x00CB	#	LATIN CAPITAL LETTER E WITH DIAERESIS
0xCC	0x00CC	#	LATIN CAPITAL LETTER I WITH GRAVE
0xCD	0x00CD	#	LATIN CAPITAL LETTER I WITH ACUTE
0xCE	0x00CE	#	LATIN CAPITAL LETTER I WITH CIRCUMFLEX
0xCF	0x00CF	#	LATIN CAPITAL LETTER I WITH DIAERESIS
0xD0	0x00D0	#	LATIN CAPITAL LETTER ETH
0xD1	0x00D1	#	LATIN CAPITAL LETTER N WITH TILDE
0xD2	0x00D2	#	LATIN CAPITAL LETTER O WITH GRAVE
0xD3	0x00D3	#	LATIN CAPITAL LETTER O WITH ACUTE
0xD4	0x00D4	#	LATIN CAPITAL LETTER O WITH CIRCUMFLEX
0xD5	0x00D5	#	LATIN CAPITAL LETTER O WITH TILDE
0xD6	0x00D6	#	LATIN CAPITAL LETTER O WITH DIAERESIS
0xD7	0x00D7	#	MULTIPLICATION SIGN
0xD8	0x00D8	#	LATIN CAPITAL LETTER O WITH STROKE
0xD9	0x00D9	#	LATIN CAPITAL LETTER U WITH GRAVE
0xDA	0x00DA	#	LATIN CAPITAL LETTER U WITH ACUTE
0xDB	0x00DB	#	LATIN CAPITAL LETTER U WITH CIRCUMFLEX
0xDC	0x00DC	#	LATIN CAPITAL LETTER U WITH DIAERESIS
0xDD	0x00DD	#	LATIN CAPITAL LETTER Y WITH ACUTE
0xDE	0x00DE	#	LATIN CAPITAL LETTER THORN
0xDF	0x00DF	#	LATIN SMALL LETTER SHARP S
0xE0	0x00E0	#	LATIN SMALL LETTER A WITH GRAVE
0xE1	0x00E1	#	LATIN SMALL LETTER A WITH ACUTE
0xE2	0x00E2	#	LATIN SMALL LETTER A WITH CIRCUMFLEX
0xE3	0x00E3	#	LATIN SMALL LETTER A WITH TILDE
0xE4	0x00E4	#	LATIN SMALL LETTER A WITH DIAERESIS
0xE5	0x00E5	#	LATIN SMALL LETTER A WITH RING ABOVE
0xE6	0x00E6	#	LATIN SMALL LETTER AE
0xE7	0x00E7	#	LATIN SMALL LETTER C WITH CEDILLA
0xE8	0x00E8	#	LATIN SMALL LETTER E WITH GRAVE
0xE9	0x00E9	#	LATIN SMALL LETTER E WITH ACUTE
0xEA	0x00EA	#	LATIN SMALL LETTER E WITH CIRCUMFLEX
0xEB	0x00EB	#	LATIN SMALL LETTER E WITH DIAERESIS
0xEC	0x00EC	#	LATIN SMALL LETTER I WITH GRAVE
0xED	0x00ED	#	LATIN SMALL LETTER I WITH ACUTE
0xEE	0x00EE	#	LATIN SMALL LETTER I WITH CIRCUMFLEX
0xEF	0x00EF	#	LATIN SMALL LETTER I WITH DIAERESIS
0xF0	0x00F0	#	LATIN SMALL LETTER ETH
0xF1	0x00F1	#	LATIN SMALL LETTER N WITH TILDE
0xF2	0x00F2	#	LATIN SMALL LETTER O WITH GRAVE
0xF3	0x00F3	#	LATIN SMALL LETTER O WITH ACUTE
0xF4	0x00F4	#	LATIN SMALL LETTER O WITH CIRCUMFLEX
0xF5	0x00F5	#	LATIN SMALL LETTER O WITH TILDE
0xF6	0x00F6	#	LATIN SMALL LETTER O WITH DIAERESIS
0xF7	0x00F7	#	DIVISION SIGN
0xF8	0x00F8	#	LATIN SMALL LETTER O WITH STROKE
0xF9	0x00F9	#	LATIN SMALL LETTER U WITH GRAVE
0xFA	0x00FA	#	LATIN SMALL LETTER U WITH ACUTE
0xFB	0x00FB	#	LATIN SMALL LETTER U WITH CIRCUMFLEX
0xFC	0x00FC	#	LATIN SMALL LETTER U WITH DIAERESIS
0xFD	0x00FD	#	LATIN SMALL LETTER Y WITH ACUTE
0xFE	0x00FE	#	LATIN SMALL LETTER THORN
0xFF	0x00FF	#	LATIN SMALL LETTER Y WITH DIAERESIS

"#

/-- src/generated/single_byte/iso-8859-15_tables.rs.inc:1-72 -/
noncomputable def iso_8859_15_source : List Text := lines! r#"// This file is auto-generated.  Please see `encoding_tables/single_byte/`
// from the root directory for the files that generate this.

use {DecodeResult, EncodeResult};

pub fn decode_to_str<'a>(
    input: &[u8],
    out_buffer: &'a mut [u8],
) -> DecodeResult<'a> {
    super::ascii_ext_decode_to_str(&DECODE_TABLE, input, out_buffer)
}

pub fn encode_from_str<'a>(
    input: &str,
    out_buffer: &'a mut [u8],
) -> EncodeResult<'a> {
    super::ascii_ext_encode_from_str(&ENCODE_TABLE, input, out_buffer)
}

const DECODE_TABLE: [char; 128] = [
    '\u{0080}','\u{0081}','\u{0082}','\u{0083}','\u{0084}','\u{0085}','\u{0086}','\u{0087}',
    '\u{0088}','\u{0089}','\u{008A}','\u{008B}','\u{008C}','\u{008D}','\u{008E}','\u{008F}',
    '\u{0090}','\u{0091}','\u{0092}','\u{0093}','\u{0094}','\u{0095}','\u{0096}','\u{0097}',
    '\u{0098}','\u{0099}','\u{009A}','\u{009B}','\u{009C}','\u{009D}','\u{009E}','\u{009F}',
    '\u{00A0}','\u{00A1}','\u{00A2}','\u{00A3}','\u{20AC}','\u{00A5}','\u{0160}','\u{00A7}',
    '\u{0161}','\u{00A9}','\u{00AA}','\u{00AB}','\u{00AC}','\u{00AD}','\u{00AE}','\u{00AF}',
    '\u{00B0}','\u{00B1}','\u{00B2}','\u{00B3}','\u{017D}','\u{00B5}','\u{00B6}','\u{00B7}',
    '\u{017E}','\u{00B9}','\u{00BA}','\u{00BB}','\u{0152}','\u{0153}','\u{0178}','\u{00BF}',
    '\u{00C0}','\u{00C1}','\u{00C2}','\u{00C3}','\u{00C4}','\u{00C5}','\u{00C6}','\u{00C7}',
    '\u{00C8}','\u{00C9}','\u{00CA}','\u{00CB}','\u{00CC}','\u{00CD}','\u{00CE}','\u{00CF}',
    '\u{00D0}','\u{00D1}','\u{00D2}','\u{00D3}','\u{00D4}','\u{00D5}','\u{00D6}','\u{00D7}',
    '\u{00D8}','\u{00D9}','\u{00DA}','\u{00DB}','\u{00DC}','\u{00DD}','\u{00DE}','\u{00DF}',
    '\u{00E0}','\u{00E1}','\u{00E2}','\u{00E3}','\u{00E4}','\u{00E5}','\u{00E6}','\u{00E7}',
    '\u{00E8}','\u{00E9}','\u{00EA}','\u{00EB}','\u{00EC}','\u{00ED}','\u{00EE}','\u{00EF}',
    '\u{00F0}','\u{00F1}','\u{00F2}','\u{00F3}','\u{00F4}','\u{00F5}','\u{00F6}','\u{00F7}',
    '\u{00F8}','\u{00F9}','\u{00FA}','\u{00FB}','\u{00FC}','\u{00FD}','\u{00FE}','\u{00FF}',
];

const ENCODE_TABLE: [(char, u8); 128] = [
    ('\u{0080}', 0x80), ('\u{0081}', 0x81), ('\u{0082}', 0x82), ('\u{0083}', 0x83), 
    ('\u{0084}', 0x84), ('\u{0085}', 0x85), ('\u{0086}', 0x86), ('\u{0087}', 0x87), 
    ('\u{0088}', 0x88), ('\u{0089}', 0x89), ('\u{008A}', 0x8A), ('\u{008B}', 0x8B), 
    ('\u{008C}', 0x8C), ('\u{008D}', 0x8D), ('\u{008E}', 0x8E), ('\u{008F}', 0x8F), 
    ('\u{0090}', 0x90), ('\u{0091}', 0x91), ('\u{0092}', 0x92), ('\u{0093}', 0x93), 
    ('\u{0094}', 0x94), ('\u{0095}', 0x95), ('\u{0096}', 0x96), ('\u{0097}', 0x97), 
    ('\u{0098}', 0x98), ('\u{0099}', 0x99), ('\u{009A}', 0x9A), ('\u{009B}', 0x9B), 
    ('\u{009C}', 0x9C), ('\u{009D}', 0x9D), ('\u{009E}', 0x9E), ('\u{009F}', 0x9F), 
    ('\u{00A0}', 0xA0), ('\u{00A1}', 0xA1), ('\u{00A2}', 0xA2), ('\u{00A3}', 0xA3), 
    ('\u{00A5}', 0xA5), ('\u{00A7}', 0xA7), ('\u{00A9}', 0xA9), ('\u{00AA}', 0xAA), 
    ('\u{00AB}', 0xAB), ('\u{00AC}', 0xAC), ('\u{00AD}', 0xAD), ('\u{00AE}', 0xAE), 
    ('\u{00AF}', 0xAF), ('\u{00B0}', 0xB0), ('\u{00B1}', 0xB1), ('\u{00B2}', 0xB2), 
    ('\u{00B3}', 0xB3), ('\u{00B5}', 0xB5), ('\u{00B6}', 0xB6), ('\u{00B7}', 0xB7), 
    ('\u{00B9}', 0xB9), ('\u{00BA}', 0xBA), ('\u{00BB}', 0xBB), ('\u{00BF}', 0xBF), 
    ('\u{00C0}', 0xC0), ('\u{00C1}', 0xC1), ('\u{00C2}', 0xC2), ('\u{00C3}', 0xC3), 
    ('\u{00C4}', 0xC4), ('\u{00C5}', 0xC5), ('\u{00C6}', 0xC6), ('\u{00C7}', 0xC7), 
    ('\u{00C8}', 0xC8), ('\u{00C9}', 0xC9), ('\u{00CA}', 0xCA), ('\u{00CB}', 0xCB), 
    ('\u{00CC}', 0xCC), ('\u{00CD}', 0xCD), ('\u{00CE}', 0xCE), ('\u{00CF}', 0xCF), 
    ('\u{00D0}', 0xD0), ('\u{00D1}', 0xD1), ('\u{00D2}', 0xD2), ('\u{00D3}', 0xD3), 
    ('\u{00D4}', 0xD4), ('\u{00D5}', 0xD5), ('\u{00D6}', 0xD6), ('\u{00D7}', 0xD7), 
    ('\u{00D8}', 0xD8), ('\u{00D9}', 0xD9), ('\u{00DA}', 0xDA), ('\u{00DB}', 0xDB), 
    ('\u{00DC}', 0xDC), ('\u{00DD}', 0xDD), ('\u{00DE}', 0xDE), ('\u{00DF}', 0xDF), 
    ('\u{00E0}', 0xE0), ('\u{00E1}', 0xE1), ('\u{00E2}', 0xE2), ('\u{00E3}', 0xE3), 
    ('\u{00E4}', 0xE4), ('\u{00E5}', 0xE5), ('\u{00E6}', 0xE6), ('\u{00E7}', 0xE7), 
    ('\u{00E8}', 0xE8), ('\u{00E9}', 0xE9), ('\u{00EA}', 0xEA), ('\u{00EB}', 0xEB), 
    ('\u{00EC}', 0xEC), ('\u{00ED}', 0xED), ('\u{00EE}', 0xEE), ('\u{00EF}', 0xEF), 
    ('\u{00F0}', 0xF0), ('\u{00F1}', 0xF1), ('\u{00F2}', 0xF2), ('\u{00F3}', 0xF3), 
    ('\u{00F4}', 0xF4), ('\u{00F5}', 0xF5), ('\u{00F6}', 0xF6), ('\u{00F7}', 0xF7), 
    ('\u{00F8}', 0xF8), ('\u{00F9}', 0xF9), ('\u{00FA}', 0xFA), ('\u{00FB}', 0xFB), 
    ('\u{00FC}', 0xFC), ('\u{00FD}', 0xFD), ('\u{00FE}', 0xFE), ('\u{00FF}', 0xFF), 
    ('\u{0152}', 0xBC), ('\u{0153}', 0xBD), ('\u{0160}', 0xA6), ('\u{0161}', 0xA8), 
    ('\u{0178}', 0xBE), ('\u{017D}', 0xB4), ('\u{017E}', 0xB8), ('\u{20AC}', 0xA4), 
];
"#

/-- encoding_tables/single_byte/ascii_ext/iso-8859-16.txt:1-293 -/
noncomputable def iso_8859_16_mapping : List Text := lines! r#"# 8859-16.TXT
# Date: 2015-12-02 22:08:00 GMT [KW]
# © 2015 Unicode®, Inc.
# For terms of use, see http://www.unicode.org/terms_of_use.html
#
#	Name:             ISO/IEC 8859-16:2001 to Unicode
#	Unicode version:  3.0
#	Table version:    2.0
#	Table format:     Format A
#	Date:             2001 July 26 (header updated: 2015 December 02)
#	Authors:          Markus Kuhn <http://www.cl.cam.ac.uk/~mgk25/>
#
#	Copyright (c) 1999-2001 Unicode, Inc.  All Rights reserved.
#
#	General notes:
#
#	This table contains the data the Unicode Consortium has on how
#       ISO/IEC 8859-16:2001 characters map into Unicode.
#
#	Format:  Three tab-separated columns
#		 Column #1 is the ISO/IEC 8859-16 code (in hex as 0xXX)
#		 Column #2 is the Unicode (in hex as 0xXXXX)
#		 Column #3 the Unicode name (follows a comment sign, '#')
#
#	The entries are in ISO/IEC 8859-16 order.
#
#	Version history
#   1.0 version: created
#   2.0 version: updates to copyright notice and terms of use; no
#       changes to character mappings
#
#	Updated versions of this file may be found in:
#		http://www.unicode.org/Public/MAPPINGS/
#
#	Any comments or problems, contact us at:
#       http://www.unicode.org/reporting.html
#
0x00	0x0000	#	NULL
0x01	0x0001	#	START OF HEADING
0x02	0x0002	#	START OF TEXT
0x03	0x0003	#	END OF TEXT
0x04	0x0004	#	END OF TRANSMISSION
0x05	0x0005	#	ENQUIRY
0x06	0x0006	#	ACKNOWLEDGE
0x07	0x0007	#	BELL
0x08	0x0008	#	BACKSPACE
0x09	0x0009	#	HORIZONTAL TABULATION
0x0A	0x000A	#	LINE FEED
0x0B	0x000B	#	VERTICAL TABULATION
0x0C	0x000C	#	FORM FEED
0x0D	0x000D	#	CARRIAGE RETURN
0x0E	0x000E	#	SHIFT OUT
0x0F	0x000F	#	SHIFT IN
0x10	0x0010	#	DATA LINK ESCAPE
0x11	0x0011	#	DEVICE CONTROL ONE
0x12	0x0012	#	DEVICE CONTROL TWO
0x13	0x0013	#	DEVICE CONTROL THREE
0x14	0x0014	#	DEVICE CONTROL FOUR
0x15	0x0015	#	NEGATIVE ACKNOWLEDGE
0x16	0x0016	#	SYNCHRONOUS IDLE
0x17	0x0017	#	END OF TRANSMISSION BLOCK
0x18	0x0018	#	CANCEL
0x19	0x0019	#	END OF MEDIUM
0x1A	0x001A	#	SUBSTITUTE
0x1B	0x001B	#	ESCAPE
0x1C	0x001C	#	FILE SEPARATOR
0x1D	0x001D	#	GROUP SEPARATOR
0x1E	0x001E	#	RECORD SEPARATOR
0x1F	0x001F	#	UNIT SEPARATOR
0x20	0x0020	#	SPACE
0x21	0x0021	#	EXCLAMATION MARK
0x22	0x0022	#	QUOTATION MARK
0x23	0x0023	#	NUMBER SIGN
0x24	0x0024	#	DOLLAR SIGN
0x25	0x0025	#	PERCENT SIGN
0x26	0x0026	#	AMPERSAND
0x27	0x0027	#	APOSTROPHE
0x28	0x0028	#	LEFT PARENTHESIS
0x29	0x0029	#	RIGHT PARENTHESIS
0x2A	0x002A	#	ASTERISK
0x2B	0x002B	#	PLUS SIGN
0x2C	0x002C	#	COMMA
0x2D	0x002D	#	HYPHEN-MINUS
0x2E	0x002E	#	FULL STOP
0x2F	0x002F	#	SOLIDUS
0x30	0x0030	#	DIGIT ZERO
0x31	0x0031	#	DIGIT ONE
0x32	0x0032	#	DIGIT TWO
0x33	0x0033	#	DIGIT THREE
0x34	0x0034	#	DIGIT FOUR
0x35	0x0035	#	DIGIT FIVE
0x36	0x0036	#	DIGIT SIX
0x37	0x0037	#	DIGIT SEVEN
0x38	0x0038	#	DIGIT EIGHT
0x39	0x0039	#	DIGIT NINE
0x3A	0x003A	#	COLON
0x3B	0x003B	#	SEMICOLON
0x3C	0x003C	#	LESS-THAN SIGN
0x3D	0x003D	#	EQUALS SIGN
0x3E	0x003E	#	GREATER-THAN SIGN
0x3F	0x003F	#	QUESTION MARK
0x40	0x0040	#	COMMERCIAL AT
0x41	0x0041	#	LATIN CAPITAL LETTER A
0x42	0x0042	#	LATIN CAPITAL LETTER B
0x43	0x0043	#	LATIN CAPITAL LETTER C
0x44	0x0044	#	LATIN CAPITAL LETTER D
0x45	0x0045	#	LATIN CAPITAL LETTER E
0x46	0x0046	#	LATIN CAPITAL LETTER F
0x47	0x0047	#	LATIN CAPITAL LETTER G
0x48	0x0048	#	LATIN CAPITAL LETTER H
0x49	0x0049	#	LATIN CAPITAL LETTER I
0x4A	0x004A	#	LATIN CAPITAL LETTER J
0x4B	0x004B	#	LATIN CAPITAL LETTER K
0x4C	0x004C	#	LATIN CAPITAL LETTER L
0x4D	0x004D	#	LATIN CAPITAL LETTER M
0x4E	0x004E	#	LATIN CAPITAL LETTER N
0x4F	0x004F	#	LATIN CAPITAL LETTER O
0x50	0x0050	#	LATIN CAPITAL LETTER P
0x51	0x0051	#	LATIN CAPITAL LETTER Q
0x52	0x0052	#	LATIN CAPITAL LETTER R
0x53	0x0053	#	LATIN CAPITAL LETTER S
0x54	0x0054	#	LATIN CAPITAL LETTER T
0x55	0x0055	#	LATIN CAPITAL LETTER U
0x56	0x0056	#	LATIN CAPITAL LETTER V
0x57	0x0057	#	LATIN CAPITAL LETTER W
0x58	0x0058	#	LATIN CAPITAL LETTER X
0x59	0x0059	#	LATIN CAPITAL LETTER Y
0x5A	0x005A	#	LATIN CAPITAL LETTER Z
0x5B	0x005B	#	LEFT SQUARE BRACKET
0x5C	0x005C	#	REVERSE SOLIDUS
0x5D	0x005D	#	RIGHT SQUARE BRACKET
0x5E	0x005E	#	CIRCUMFLEX ACCENT
0x5F	0x005F	#	LOW LINE
0x60	0x0060	#	GRAVE ACCENT
0x61	0x0061	#	LATIN SMALL LETTER A
0x62	0x0062	#	LATIN SMALL LETTER B
0x63	0x0063	#	LATIN SMALL LETTER C
0x64	0x0064	#	LATIN SMALL LETTER D
0x65	0x0065	#	LATIN SMALL LETTER E
0x66	0x0066	#	LATIN SMALL LETTER F
0x67	0x0067	#	LATIN SMALL LETTER G
0x68	0x0068	#	LATIN SMALL LETTER H
0x69	0x0069	#	LATIN SMALL LETTER I
0x6A	0x006A	#	LATIN SMALL LETTER J
0x6B	0x006B	#	LATIN SMALL LETTER K
0x6C	0x006C	#	LATIN SMALL LETTER L
0x6D	0x006D	#	LATIN SMALL LETTER M
0x6E	0x006E	#	LATIN SMALL LETTER N
0x6F	0x006F	#	LATIN SMALL LETTER O
0x70	0x0070	#	LATIN SMALL LETTER P
0x71	0x0071	#	LATIN SMALL LETTER Q
0x72	0x0072	#	LATIN SMALL LETTER R
0x73	0x0073	#	LATIN SMALL LETTER S
0x74	0x0074	#	LATIN SMALL LETTER T
0x75	0x0075	#	LATIN SMALL LETTER U
0x76	0x0076	#	LATIN SMALL LETTER V
0x77	0x0077	#	LATIN SMALL LETTER W
0x78	0x0078	#	LATIN SMALL LETTER X
0x79	0x0079	#	LATIN SMALL LETTER Y
0x7A	0x007A	#	LATIN SMALL LETTER Z
0x7B	0x007B	#	LEFT CURLY BRACKET
0x7C	0x007C	#	VERTICAL LINE
0x7D	0x007D	#	RIGHT CURLY BRACKET
0x7E	0x007E	#	TILDE
0x7F	0x007F	#	DELETE
0x80	0x0080	#	<control>
0x81	0x0081	#	<control>
0x82	0x0082	#	<control>
0x83	0x0083	#	<control>
0x84	0x0084	#	<control>
0x85	0x0085	#	<control>
0x86	0x0086	#	<control>
0x87	0x0087	#	<control>
0x88	0x0088	#	<control>
0x89	0x0089	#	<control>
0x8A	0x008A	#	<control>
0x8B	0x008B	#	<control>
0x8C	0x008C	#	<control>
0x8D	0x008D	#	<control>
0x8E	0x008E	#	<control>
0x8F	0x008F	#	<control>
0x90	0x0090	#	<control>
0x91	0x0091	#	<control>
0x92	0x0092	#	<control>
0x93	0x0093	#	<control>
0x94	0x0094	#	<control>
0x95	0x0095	#	<control>
0x96	0x0096	#	<control>
0x97	0x0097	#	<control>
0x98	0x0098	#	<control>
0x99	0x0099	#	<control>
0x9A	0x009A	#	<control>
0x9B	0x009B	#	<control>
0x9C	0x009C	#	<control>
0x9D	0x009D	#	<control>
0x9E	0x009E	#	<control>
0x9F	0x009F	#	<control>
0xA0	0x00A0	#	NO-BREAK SPACE
0xA1	0x0104	#	LATIN CAPITAL LETTER A WITH OGONEK
0xA2	0x0105	#	LATIN SMALL LETTER A WITH OGONEK
0xA3	0x0141	#	LATIN CAPITAL LETTER L WITH STROKE
0xA4	0x20AC	#	EURO SIGN
0xA5	0x201E	#	DOUBLE LOW-9 QUOTATION MARK
0xA6	0x0160	#	LATIN CAPITAL LETTER S WITH CARON
0xA7	0x00A7	#	SECTION SIGN
0xA8	0x0161	#	LATIN SMALL LETTER S WITH CARON
0xA9	0x00A9	#	COPYRIGHT SIGN
0xAA	0x0218	#	LATIN CAPITAL LETTER S WITH COMMA BELOW
0xAB	0x00AB	#	LEFT-POINTING DOUBLE ANGLE QUOTATION MARK
0xAC	0x0179	#	LATIN CAPITAL LETTER Z WITH ACUTE
0xAD	0x00AD	#	SOFT HYPHEN
0xAE	0x017A	#	LATIN SMALL LETTER Z WITH ACUTE
0xAF	0x017B	#	LATIN CAPITAL LETTER Z WITH DOT ABOVE
0xB0	0x00B0	#	DEGREE SIGN
0xB1	0x00B1	#	PLUS-MINUS SIGN
0xB2	0x010C	#	LATIN CAPITAL LETTER C WITH CARON
0xB3	0x0142	#	LATIN SMALL LETTER L WITH STROKE
0xB4	0x017D	#	LATIN CAPITAL LETTER Z WITH CARON
0xB5	0x201D	#	RIGHT DOUBLE QUOTATION MARK
0xB6	0x00B6	#	PILCROW SIGN
0xB7	0x00B7	#	MIDDLE DOT
0xB8	0x017E	#	LATIN SMALL LETTER Z WITH CARON
0xB9	0x010D	#	LATIN SMALL LETTER C WITH CARON
0xBA	0x0219	#	LATIN SMALL LETTER S WITH COMMA BELOW
0xBB	0x00BB	#	RIGHT-POINTING DOUBLE ANGLE QUOTATION MARK
0xBC	0x0152	#	LATIN CAPITAL LIGATURE OE
0xBD	0x0153	#	LATIN SMALL LIGATURE OE
0xBE	0x0178	#	LATIN CAPITAL LETTER Y WITH DIAERESIS
0xBF	0x017C	#	LATIN SMALL LETTER Z WITH DOT ABOVE
0xC0	0x00C0	#	LATIN CAPITAL LETTER A WITH GRAVE
0xC1	0x00C1	#	LATIN CAPITAL LETTER A WITH ACUTE
0xC2	0x00C2	#	LATIN CAPITAL LETTER A WITH CIRCUMFLEX
0xC3	0x0102	#	LATIN CAPITAL LETTER A WITH BREVE
0xC4	0x00C4	#	LATIN CAPITAL LETTER A WITH DIAERESIS
0xC5	0x0106	#	LATIN CAPITAL LETTER C WITH ACUTE
0xC6	0x00C6	#	LATIN CAPITAL LETTER AE
0xC7	0x00C7	#	LATIN CAPITAL LETTER C WITH CEDILLA
0xC8	0x00C8	#	LATIN CAPITAL LETTER E WITH GRAVE
0xC9	0x00C9	#	LATIN CAPITAL LETTER E WITH ACUTE
0xCA	0x00CA	#	LATIN CAPITAL LETTER E WITH CIRCUMFLEX
0xCB	0x00CB	#	LATIN CAPITAL LETTER E WITH DIAERESIS
0xCC	0x00CC	#	LATIN CAPITAL LETTER I WITH GRAVE
0xCD	0x00CD	#	LATIN CAPITAL LETTER I WITH ACUTE
0xCE	0x00CE	#	LATIN CAPITAL LETTER I WITH CIRCUMFLEX
0xCF	0x00CF	#	LATIN CAPITAL LETTER I WITH DIAERESIS
0xD0	0x0110	#	LATIN CAPITAL LETTER D WITH STROKE
0xD1	0x0143	#	LATIN CAPITAL LETTER N WITH ACUTE
0xD2	0x00D2	#	LATIN CAPITAL LETTER O WITH GRAVE
0xD3	0x00D3	#	LATIN CAPITAL LETTER O WITH ACUTE
0xD4	0x00D4	#	LATIN CAPITAL LETTER O WITH CIRCUMFLEX
0xD5	0x0150	#	LATIN CAPITAL LETTER O WITH DOUBLE ACUTE
0xD6	0x00D6	#	LATIN CAPITAL LETTER O WITH DIAERESIS
0xD7	0x015A	#	LATIN CAPITAL LETTER S WITH ACUTE
0xD8	0x0170	#	LATIN CAPITAL LETTER U WITH DOUBLE ACUTE
0xD9	0x00D9	#	LATIN CAPITAL LETTER U WITH GRAVE
0xDA	0x00DA	#	LATIN CAPITAL LETTER U WITH ACUTE
0xDB	0x00DB	#	LATIN CAPITAL LETTER U WITH CIRCUMFLEX
0xDC	0x00DC	#	LATIN CAPITAL LETTER U WITH DIAERESIS
0xDD	0x0118	#	LATIN CAPITAL LETTER E WITH OGONEK
0xDE	0x021A	#	LATIN CAPITAL LETTER T WITH COMMA BELOW
0xDF	0x00DF	#	LATIN SMALL LETTER SHARP S
0xE0	0x00E0	#	LATIN SMALL LETTER A WITH GRAVE
0xE1	0x00E1	#	LATIN SMALL LETTER A WITH ACUTE
0xE2	0x00E2	#	LATIN SMALL LETTER A WITH CIRCUMFLEX
0xE3	0x0103	#	LATIN SMALL LETTER A WITH BREVE
0xE4	0x00E4	#	LATIN SMALL LETTER A WITH DIAERESIS
0xE5	0x0107	#	LATIN SMALL LETTER C WITH ACUTE
0xE6	0x00E6	#	LATIN SMALL LETTER AE
0xE7	0x00E7	#	LATIN SMALL LETTER C WITH CEDILLA
0xE8	0x00E8	#	LATIN SMALL LETTER E WITH GRAVE
0xE9	0x00E9	#	LATIN SMALL LETTER E WITH ACUTE
0xEA	0x00EA	#	LATIN SMALL LETTER E WITH CIRCUMFLEX
0xEB	0x00EB	#	LATIN SMALL LETTER E WITH DIAERESIS
0xEC	0x00EC	#	LATIN SMALL LETTER I WITH GRAVE
0xED	0x00ED	#	LATIN SMALL LETTER I WITH ACUTE
0xEE	0x00EE	#	LATIN SMALL LETTER I WITH CIRCUMFLEX
0xEF	0x00EF	#	LATIN SMALL LETTER I WITH DIAERESIS
0xF0	0x0111	#	LATIN SMALL LETTER D WITH STROKE
0xF1	0x0144	#	LATIN SMALL LETTER N WITH ACUTE
0xF2	0x00F2	#	LATIN SMALL LETTER O WITH GRAVE
0xF3	0x00F3	#	LATIN SMALL LETTER O WITH ACUTE
0xF4	0x00F4	#	LATIN SMALL LETTER O WITH CIRCUMFLEX
0xF5	0x0151	#	LATIN SMALL LETTER O WITH DOUBLE ACUTE
0xF6	0x00F6	#	LATIN SMALL LETTER O WITH DIAERESIS
0xF7	0x015B	#	LATIN SMALL LETTER S WITH ACUTE
0xF8	0x0171	#	LATIN SMALL LETTER U WITH DOUBLE ACUTE
0xF9	0x00F9	#	LATIN SMALL LETTER U WITH GRAVE
0xFA	0x00FA	#	LATIN SMALL LETTER U WITH ACUTE
0xFB	0x00FB	#	LATIN SMALL LETTER U WITH CIRCUMFLEX
0xFC	0x00FC	#	LATIN SMALL LETTER U WITH DIAERESIS
0xFD	0x0119	#	LATIN SMALL LETTER E WITH OGONEK
0xFE	0x021B	#	LATIN SMALL LETTER T WITH COMMA BELOW
0xFF	0x00FF	#	LATIN SMALL LETTER Y WITH DIAERESIS
"#

/-- src/generated/single_byte/iso-8859-16_tables.rs.inc:1-72 -/
noncomputable def iso_8859_16_source : List Text := lines! r#"// This file is auto-generated.  Please see `encoding_tables/single_byte/`
// from the root directory for the files that generate this.

use {DecodeResult, EncodeResult};

pub fn decode_to_str<'a>(
    input: &[u8],
    out_buffer: &'a mut [u8],
) -> DecodeResult<'a> {
    super::ascii_ext_decode_to_str(&DECODE_TABLE, input, out_buffer)
}

pub fn encode_from_str<'a>(
    input: &str,
    out_buffer: &'a mut [u8],
) -> EncodeResult<'a> {
    super::ascii_ext_encode_from_str(&ENCODE_TABLE, input, out_buffer)
}

const DECODE_TABLE: [char; 128] = [
    '\u{0080}','\u{0081}','\u{0082}','\u{0083}','\u{0084}','\u{0085}','\u{0086}','\u{0087}',
    '\u{0088}','\u{0089}','\u{008A}','\u{008B}','\u{008C}','\u{008D}','\u{008E}','\u{008F}',
    '\u{0090}','\u{0091}','\u{0092}','\u{0093}','\u{0094}','\u{0095}','\u{0096}','\u{0097}',
    '\u{0098}','\u{0099}','\u{009A}','\u{009B}','\u{009C}','\u{009D}','\u{009E}','\u{009F}',
    '\u{00A0}','\u{0104}','\u{0105}','\u{0141}','\u{20AC}','\u{201E}','\u{0160}','\u{00A7}',
    '\u{0161}','\u{00A9}','\u{0218}','\u{00AB}','\u{0179}','\u{00AD}','\u{017A}','\u{017B}',
    '\u{00B0}','\u{00B1}','\u{010C}','\u{0142}','\u{017D}','\u{201D}','\u{00B6}','\u{00B7}',
    '\u{017E}','\u{010D}','\u{0219}','\u{00BB}','\u{0152}','\u{0153}','\u{0178}','\u{017C}',
    '\u{00C0}','\u{00C1}','\u{00C2}','\u{0102}','\u{00C4}','\u{0106}','\u{00C6}','\u{00C7}',
    '\u{00C8}','\u{00C9}','\u{00CA}','\u{00CB}','\u{00CC}','\u{00CD}','\u{00CE}','\u{00CF}',
    '\u{0110}','\u{0143}','\u{00D2}','\u{00D3}','\u{00D4}','\u{0150}','\u{00D6}','\u{015A}',
    '\u{0170}','\u{00D9}','\u{00DA}','\u{00DB}','\u{00DC}','\u{0118}','\u{021A}','\u{00DF}',
    '\u{00E0}','\u{00E1}','\u{00E2}','\u{0103}','\u{00E4}','\u{0107}','\u{00E6}','\u{00E7}',
    '\u{00E8}','\u{00E9}','\u{00EA}','\u{00EB}','\u{00EC}','\u{00ED}','\u{00EE}','\u{00EF}',
    '\u{0111}','\u{0144}','\u{00F2}','\u{00F3}','\u{00F4}','\u{0151}','\u{00F6}','\u{015B}',
    '\u{0171}','\u{00F9}','\u{00FA}','\u{00FB}','\u{00FC}','\u{0119}','\u{021B}','\u{00FF}',
];

const ENCODE_TABLE: [(char, u8); 128] = [
    ('\u{0080}', 0x80), ('\u{0081}', 0x81), ('\u{0082}', 0x82), ('\u{0083}', 0x83), 
    ('\u{0084}', 0x84), ('\u{0085}', 0x85), ('\u{0086}', 0x86), ('\u{0087}', 0x87), 
    ('\u{0088}', 0x88), ('\u{0089}', 0x89), ('\u{008A}', 0x8A), ('\u{008B}', 0x8B), 
    ('\u{008C}', 0x8C), ('\u{008D}', 0x8D), ('\u{008E}', 0x8E), ('\u{008F}', 0x8F), 
    ('\u{0090}', 0x90), ('\u{0091}', 0x91), ('\u{0092}', 0x92), ('\u{0093}', 0x93), 
    ('\u{0094}', 0x94), ('\u{0095}', 0x95), ('\u{0096}', 0x96), ('\u{0097}', 0x97), 
    ('\u{0098}', 0x98), ('\u{0099}', 0x99), ('\u{009A}', 0x9A), ('\u{009B}', 0x9B), 
    ('\u{009C}', 0x9C), ('\u{009D}', 0x9D), ('\u{009E}', 0x9E), ('\u{009F}', 0x9F), 
    ('\u{00A0}', 0xA0), ('\u{00A7}', 0xA7), ('\u{00A9}', 0xA9), ('\u{00AB}', 0xAB), 
    ('\u{00AD}', 0xAD), ('\u{00B0}', 0xB0), ('\u{00B1}', 0xB1), ('\u{00B6}', 0xB6), 
    ('\u{00B7}', 0xB7), ('\u{00BB}', 0xBB), ('\u{00C0}', 0xC0), ('\u{00C1}', 0xC1), 
    ('\u{00C2}', 0xC2), ('\u{00C4}', 0xC4), ('\u{00C6}', 0xC6), ('\u{00C7}', 0xC7), 
    ('\u{00C8}', 0xC8), ('\u{00C9}', 0xC9), ('\u{00CA}', 0xCA), ('\u{00CB}', 0xCB), 
    ('\u{00CC}', 0xCC), ('\u{00CD}', 0xCD), ('\u{00CE}', 0xCE), ('\u{00CF}', 0xCF), 
    ('\u{00D2}', 0xD2), ('\u{00D3}', 0xD3), ('\u{00D4}', 0xD4), ('\u{00D6}', 0xD6), 
    ('\u{00D9}', 0xD9), ('\u{00DA}', 0xDA), ('\u{00DB}', 0xDB), ('\u{00DC}', 0xDC), 
    ('\u{00DF}', 0xDF), ('\u{00E0}', 0xE0), ('\u{00E1}', 0xE1), ('\u{00E2}', 0xE2), 
    ('\u{00E4}', 0xE4), ('\u{00E6}', 0xE6), ('\u{00E7}', 0xE7), ('\u{00E8}', 0xE8), 
    ('\u{00E9}', 0xE9), ('\u{00EA}', 0xEA), ('\u{00EB}', 0xEB), ('\u{00EC}', 0xEC), 
    ('\u{00ED}', 0xED), ('\u{00EE}', 0xEE), ('\u{00EF}', 0xEF), ('\u{00F2}', 0xF2), 
    ('\u{00F3}', 0xF3), ('\u{00F4}', 0xF4), ('\u{00F6}', 0xF6), ('\u{00F9}', 0xF9), 
    ('\u{00FA}', 0xFA), ('\u{00FB}', 0xFB), ('\u{00FC}', 0xFC), ('\u{00FF}', 0xFF), 
    ('\u{0102}', 0xC3), ('\u{0103}', 0xE3), ('\u{0104}', 0xA1), ('\u{0105}', 0xA2), 
    ('\u{0106}', 0xC5), ('\u{0107}', 0xE5), ('\u{010C}', 0xB2), ('\u{010D}', 0xB9), 
    ('\u{0110}', 0xD0), ('\u{0111}', 0xF0), ('\u{0118}', 0xDD), ('\u{0119}', 0xFD), 
    ('\u{0141}', 0xA3), ('\u{0142}', 0xB3), ('\u{0143}', 0xD1), ('\u{0144}', 0xF1), 
    ('\u{0150}', 0xD5), ('\u{0151}', 0xF5), ('\u{0152}', 0xBC), ('\u{0153}', 0xBD), 
    ('\u{015A}', 0xD7), ('\u{015B}', 0xF7), ('\u{0160}', 0xA6), ('\u{0161}', 0xA8), 
    ('\u{0170}', 0xD8), ('\u{0171}', 0xF8), ('\u{0178}', 0xBE), ('\u{0179}', 0xAC), 
    ('\u{017A}', 0xAE), ('\u{017B}', 0xAF), ('\u{017C}', 0xBF), ('\u{017D}', 0xB4), 
    ('\u{017E}', 0xB8), ('\u{0218}', 0xAA), ('\u{0219}', 0xBA), ('\u{021A}', 0xDE), 
    ('\u{021B}', 0xFE), ('\u{201D}', 0xB5), ('\u{201E}', 0xA5), ('\u{20AC}', 0xA4), 
];
"#

/-- encoding_tables/single_byte/ascii_ext/koi8-r.txt:1-294 -/
noncomputable def koi8_r_mapping : List Text := lines! r#"# KOI8-R.TXT
# Date: 2016-01-04 23:05:00 GMT [KW]
# © 2016 Unicode®, Inc.
# For terms of use, see http://www.unicode.org/terms_of_use.html
#
#	Name:             KOI8-R (RFC1489) to Unicode
#	Unicode version:  3.0
#	Table version:    2.0
#	Table format:     Format A
#	Date:             18 August 1999 (header updated: 2016-January-04)
#	Authors:          Helmut Richter <richter@lrz.de>
#
#	General notes:
#
#	This table contains the data the Unicode Consortium has on how
#       KOI8-R characters map into Unicode. The underlying document is the
#	mapping described in RFC 1489. No statements are made as to whether
#	this mapping is the same as the mapping defined as "Code Page 878"
#	with some vendors.
#
#	Format:  Three tab-separated columns
#		 Column #1 is the KOI8-R code (in hex as 0xXX)
#		 Column #2 is the Unicode (in hex as 0xXXXX)
#		 Column #3 the Unicode name (follows a comment sign, '#')
#
#	The entries are in KOI8-R order.
#
#	Version history
#	1.0 version: created.
#   2.0 version: updates to copyright notice and terms of use; no
#       changes to character mappings
#
#	Updated versions of this file may be found in:
#		http://www.unicode.org/Public/MAPPINGS/
#
#	Any comments or problems, contact us at:
#       http://www.unicode.org/reporting.html
#
0x00	0x0000	#	NULL
0x01	0x0001	#	START OF HEADING
0x02	0x0002	#	START OF TEXT
0x03	0x0003	#	END OF TEXT
0x04	0x0004	#	END OF TRANSMISSION
0x05	0x0005	#	ENQUIRY
0x06	0x0006	#	ACKNOWLEDGE
0x07	0x0007	#	BELL
0x08	0x0008	#	BACKSPACE
0x09	0x0009	#	HORIZONTAL TABULATION
0x0A	0x000A	#	LINE FEED
0x0B	0x000B	#	VERTICAL TABULATION
0x0C	0x000C	#	FORM FEED
0x0D	0x000D	#	CARRIAGE RETURN
0x0E	0x000E	#	SHIFT OUT
0x0F	0x000F	#	SHIFT IN
0x10	0x0010	#	DATA LINK ESCAPE
0x11	0x0011	#	DEVICE CONTROL ONE
0x12	0x0012	#	DEVICE CONTROL TWO
0x13	0x0013	#	DEVICE CONTROL THREE
0x14	0x0014	#	DEVICE CONTROL FOUR
0x15	0x0015	#	NEGATIVE ACKNOWLEDGE
0x16	0x0016	#	SYNCHRONOUS IDLE
0x17	0x0017	#	END OF TRANSMISSION BLOCK
0x18	0x0018	#	CANCEL
0x19	0x0019	#	END OF MEDIUM
0x1A	0x001A	#	SUBSTITUTE
0x1B	0x001B	#	ESCAPE
0x1C	0x001C	#	FILE SEPARATOR
0x1D	0x001D	#	GROUP SEPARATOR
0x1E	0x001E	#	RECORD SEPARATOR
0x1F	0x001F	#	UNIT SEPARATOR
0x20	0x0020	#	SPACE
0x21	0x0021	#	EXCLAMATION MARK
0x22	0x0022	#	QUOTATION MARK
0x23	0x0023	#	NUMBER SIGN
0x24	0x0024	#	DOLLAR SIGN
0x25	0x0025	#	PERCENT SIGN
0x26	0x0026	#	AMPERSAND
0x27	0x0027	#	APOSTROPHE
0x28	0x0028	#	LEFT PARENTHESIS
0x29	0x0029	#	RIGHT PARENTHESIS
0x2A	0x002A	#	ASTERISK
0x2B	0x002B	#	PLUS SIGN
0x2C	0x002C	#	COMMA
0x2D	0x002D	#	HYPHEN-MINUS
0x2E	0x002E	#	FULL STOP
0x2F	0x002F	#	SOLIDUS
0x30	0x0030	#	DIGIT ZERO
0x31	0x0031	#	DIGIT ONE
0x32	0x0032	#	DIGIT TWO
0x33	0x0033	#	DIGIT THREE
0x34	0x0034	#	DIGIT FOUR
0x35	0x0035	#	DIGIT FIVE
0x36	0x0036	#	DIGIT SIX
0x37	0x0037	#	DIGIT SEVEN
0x38	0x0038	#	DIGIT EIGHT
0x39	0x0039	#	DIGIT NINE
0x3A	0x003A	#	COLON
0x3B	0x003B	#	SEMICOLON
0x3C	0x003C	#	LESS-THAN SIGN
0x3D	0x003D	#	EQUALS SIGN
0x3E	0x003E	#	GREATER-THAN SIGN
0x3F	0x003F	#	QUESTION MARK
0x40	0x0040	#	COMMERCIAL AT
0x41	0x0041	#	LATIN CAPITAL LETTER A
0x42	0x0042	#	LATIN CAPITAL LETTER B
0x43	0x0043	#	LATIN CAPITAL LETTER C
0x44	0x0044	#	LATIN CAPITAL LETTER D
0x45	0x0045	#	LATIN CAPITAL LETTER E
0x46	0x0046	#	LATIN CAPITAL LETTER F
0x47	0x0047	#	LATIN CAPITAL LETTER G
0x48	0x0048	#	LATIN CAPITAL LETTER H
0x49	0x0049	#	LATIN CAPITAL LETTER I
0x4A	0x004A	#	LATIN CAPITAL LETTER J
0x4B	0x004B	#	LATIN CAPITAL LETTER K
0x4C	0x004C	#	LATIN CAPITAL LETTER L
0x4D	0x004D	#	LATIN CAPITAL LETTER M
0x4E	0x004E	#	LATIN CAPITAL LETTER N
0x4F	0x004F	#	LATIN CAPITAL LETTER O
0x50	0x0050	#	LATIN CAPITAL LETTER P
0x51	0x0051	#	LATIN CAPITAL LETTER Q
0x52	0x0052	#	LATIN CAPITAL LETTER R
0x53	0x0053	#	LATIN CAPITAL LETTER S
0x54	0x0054	#	LATIN CAPITAL LETTER T
0x55	0x0055	#	LATIN CAPITAL LETTER U
0x56	0x0056	#	LATIN CAPITAL LETTER V
0x57	0x0057	#	LATIN CAPITAL LETTER W
0x58	0x0058	#	LATIN CAPITAL LETTER X
0x59	0x0059	#	LATIN CAPITAL LETTER Y
0x5A	0x005A	#	LATIN CAPITAL LETTER Z
0x5B	0x005B	#	LEFT SQUARE BRACKET
0x5C	0x005C	#	REVERSE SOLIDUS
0x5D	0x005D	#	RIGHT SQUARE BRACKET
0x5E	0x005E	#	CIRCUMFLEX ACCENT
0x5F	0x005F	#	LOW LINE
0x60	0x0060	#	GRAVE ACCENT
0x61	0x0061	#	LATIN SMALL LETTER A
0x62	0x0062	#	LATIN SMALL LETTER B
0x63	0x0063	#	LATIN SMALL LETTER C
0x64	0x0064	#	LATIN SMALL LETTER D
0x65	0x0065	#	LATIN SMALL LETTER E
0x66	0x0066	#	LATIN SMALL LETTER F
0x67	0x0067	#	LATIN SMALL LETTER G
0x68	0x0068	#	LATIN SMALL LETTER H
0x69	0x0069	#	LATIN SMALL LETTER I
0x6A	0x006A	#	LATIN SMALL LETTER J
0x6B	0x006B	#	LATIN SMALL LETTER K
0x6C	0x006C	#	LATIN SMALL LETTER L
0x6D	0x006D	#	LATIN SMALL LETTER M
0x6E	0x006E	#	LATIN SMALL LETTER N
0x6F	0x006F	#	LATIN SMALL LETTER O
0x70	0x0070	#	LATIN SMALL LETTER P
0x71	0x0071	#	LATIN SMALL LETTER Q
0x72	0x0072	#	LATIN SMALL LETTER R
0x73	0x0073	#	LATIN SMALL LETTER S
0x74	0x0074	#	LATIN SMALL LETTER T
0x75	0x0075	#	LATIN SMALL LETTER U
0x76	0x0076	#	LATIN SMALL LETTER V
0x77	0x0077	#	LATIN SMALL LETTER W
0x78	0x0078	#	LATIN SMALL LETTER X
0x79	0x0079	#	LATIN SMALL LETTER Y
0x7A	0x007A	#	LATIN SMALL LETTER Z
0x7B	0x007B	#	LEFT CURLY BRACKET
0x7C	0x007C	#	VERTICAL LINE
0x7D	0x007D	#	RIGHT CURLY BRACKET
0x7E	0x007E	#	TILDE
0x7F	0x007F	#	DELETE
0x80	0x2500	#	BOX DRAWINGS LIGHT HORIZONTAL
0x81	0x2502	#	BOX DRAWINGS LIGHT VERTICAL
0x82	0x250C	#	BOX DRAWINGS LIGHT DOWN AND RIGHT
0x83	0x2510	#	BOX DRAWINGS LIGHT DOWN AND LEFT
0x84	0x2514	#	BOX DRAWINGS LIGHT UP AND RIGHT
0x85	0x2518	#	BOX DRAWINGS LIGHT UP AND LEFT
0x86	0x251C	#	BOX DRAWINGS LIGHT VERTICAL AND RIGHT
0x87	0x2524	#	BOX DRAWINGS LIGHT VERTICAL AND LEFT
0x88	0x252C	#	BOX DRAWINGS LIGHT DOWN AND HORIZONTAL
0x89	0x2534	#	BOX DRAWINGS LIGHT UP AND HORIZONTAL
0x8A	0x253C	#	BOX DRAWINGS LIGHT VERTICAL AND HORIZONTAL
0x8B	0x2580	#	UPPER HALF BLOCK
0x8C	0x2584	#	LOWER HALF BLOCK
0x8D	0x2588	#	FULL BLOCK
0x8E	0x258C	#	LEFT HALF BLOCK
0x8F	0x2590	#	RIGHT HALF BLOCK
0x90	0x2591	#	LIGHT SHADE
0x91	0x2592	#	MEDIUM SHADE
0x92	0x2593	#	DARK SHADE
0x93	0x2320	#	TOP HALF INTEGRAL
0x94	0x25A0	#	BLACK SQUARE
0x95	0x2219	#	BULLET OPERATOR
0x96	0x221A	#	SQUARE ROOT
0x97	0x2248	#	ALMOST EQUAL TO
0x98	0x2264	#	LESS-THAN OR EQUAL TO
0x99	0x2265	#	GREATER-THAN OR EQUAL TO
0x9A	0x00A0	#	NO-BREAK SPACE
0x9B	0x2321	#	BOTTOM HALF INTEGRAL
0x9C	0x00B0	#	DEGREE SIGN
0x9D	0x00B2	#	SUPERSCRIPT TWO
0x9E	0x00B7	#	MIDDLE DOT
0x9F	0x00F7	#	DIVISION SIGN
0xA0	0x2550	#	BOX DRAWINGS DOUBLE HORIZONTAL
0xA1	0x2551	#	BOX DRAWINGS DOUBLE VERTICAL
0xA2	0x2552	#	BOX DRAWINGS DOWN SINGLE AND RIGHT DOUBLE
0xA3	0x0451	#	CYRILLIC SMALL LETTER IO
0xA4	0x2553	#	BOX DRAWINGS DOWN DOUBLE AND RIGHT SINGLE
0xA5	0x2554	#	BOX DRAWINGS DOUBLE DOWN AND RIGHT
0xA6	0x2555	#	BOX DRAWINGS DOWN SINGLE AND LEFT DOUBLE
0xA7	0x2556	#	BOX DRAWINGS DOWN DOUBLE AND LEFT SINGLE
0xA8	0x2557	#	BOX DRAWINGS DOUBLE DOWN AND LEFT
0xA9	0x2558	#	BOX DRAWINGS UP SINGLE AND RIGHT DOUBLE
0xAA	0x2559	#	BOX DRAWINGS UP DOUBLE AND RIGHT SINGLE
0xAB	0x255A	#	BOX DRAWINGS DOUBLE UP AND RIGHT
0xAC	0x255B	#	BOX DRAWINGS UP SINGLE AND LEFT DOUBLE
0xAD	0x255C	#	BOX DRAWINGS UP DOUBLE AND LEFT SINGLE
0xAE	0x255D	#	BOX DRAWINGS DOUBLE UP AND LEFT
0xAF	0x255E	#	BOX DRAWINGS VERTICAL SINGLE AND RIGHT DOUBLE
0xB0	0x255F	#	BOX DRAWINGS VERTICAL DOUBLE AND RIGHT SINGLE
0xB1	0x2560	#	BOX DRAWINGS DOUBLE VERTICAL AND RIGHT
0xB2	0x2561	#	BOX DRAWINGS VERTICAL SINGLE AND LEFT DOUBLE
0xB3	0x0401	#	CYRILLIC CAPITAL LETTER IO
0xB4	0x2562	#	BOX DRAWINGS VERTICAL DOUBLE AND LEFT SINGLE
0xB5	0x2563	#	BOX DRAWINGS DOUBLE VERTICAL AND LEFT
0xB6	0x2564	#	BOX DRAWINGS DOWN SINGLE AND HORIZONTAL DOUBLE
0xB7	0x2565	#	BOX DRAWINGS DOWN DOUBLE AND HORIZONTAL SINGLE
0xB8	0x2566	#	BOX DRAWINGS DOUBLE DOWN AND HORIZONTAL
0xB9	0x2567	#	BOX DRAWINGS UP SINGLE AND HORIZONTAL DOUBLE
0xBA	0x2568	#	BOX DRAWINGS UP DOUBLE AND HORIZONTAL SINGLE
0xBB	0x2569	#	BOX DRAWINGS DOUBLE UP AND HORIZONTAL
0xBC	0x256A	#	BOX DRAWINGS VERTICAL SINGLE AND HORIZONTAL DOUBLE
0xBD	0x256B	#	BOX DRAWINGS VERTICAL DOUBLE AND HORIZONTAL SINGLE
0xBE	0x256C	#	BOX DRAWINGS DOUBLE VERTICAL AND HORIZONTAL
0xBF	0x00A9	#	COPYRIGHT SIGN
0xC0	0x044E	#	CYRILLIC SMALL LETTER YU
0xC1	0x0430	#	CYRILLIC SMALL LETTER A
0xC2	0x0431	#	CYRILLIC SMALL LETTER BE
0xC3	0x0446	#	CYRILLIC SMALL LETTER TSE
0xC4	0x0434	#	CYRILLIC SMALL LETTER DE
0xC5	0x0435	#	CYRILLIC SMALL LETTER IE
0xC6	0x0444	#	CYRILLIC SMALL LETTER EF
0xC7	0x0433	#	CYRILLIC SMALL LETTER GHE
0xC8	0x0445	#	CYRILLIC SMALL LETTER HA
0xC9	0x0438	#	CYRILLIC SMALL LETTER I
0xCA	0x0439	#	CYRILLIC SMALL LETTER SHORT I
0xCB	0x043A	#	CYRILLIC SMALL LETTER KA
0xCC	0x043B	#	CYRILLIC SMALL LETTER EL
0xCD	0x043C	#	CYRILLIC SMALL LETTER EM
0xCE	0x043D	#	CYRILLIC SMALL LETTER EN
0xCF	0x043E	#	CYRILLIC SMALL LETTER O
0xD0	0x043F	#	CYRILLIC SMALL LETTER PE
0xD1	0x044F	#	CYRILLIC SMALL LETTER YA
0xD2	0x0440	#	CYRILLIC SMALL LETTER ER
0xD3	0x0441	#	CYRILLIC SMALL LETTER ES
0xD4	0x0442	#	CYRILLIC SMALL LETTER TE
0xD5	0x0443	#	CYRILLIC SMALL LETTER U
0xD6	0x0436	#	CYRILLIC SMALL LETTER ZHE
0xD7	0x0432	#	CYRILLIC SMALL LETTER VE
0xD8	0x044C	#	CYRILLIC SMALL LETTER SOFT SIGN
0xD9	0x044B	#	CYRILLIC SMALL LETTER YERU
0xDA	0x0437	#	CYRILLIC SMALL LETTER ZE
0xDB	0x0448	#	CYRILLIC SMALL LETTER SHA
0xDC	0x044D	#	CYRILLIC SMALL LETTER E
0xDD	0x0449	#	CYRILLIC SMALL LETTER SHCHA
0xDE	0x0447	#	CYRILLIC SMALL LETTER CHE
0xDF	0x044A	#	CYRILLIC SMALL LETTER HARD SIGN
0xE0	0x042E	#	CYRILLIC CAPITAL LETTER YU
0xE1	0x0410	#	CYRILLIC CAPITAL LETTER A
0xE2	0x0411	#	CYRILLIC CAPITAL LETTER BE
0xE3	0x0426	#	CYRILLIC CAPITAL LETTER TSE
0xE4	0x0414	#	CYRILLIC CAPITAL LETTER DE
0xE5	0x0415	#	CYRILLIC CAPITAL LETTER IE
0xE6	0x0424	#	CYRILLIC CAPITAL LETTER EF
0xE7	0x0413	#	CYRILLIC CAPITAL LETTER GHE
0xE8	0x0425	#	CYRILLIC CAPITAL LETTER HA
0xE9	0x0418	#	CYRILLIC CAPITAL LETTER I
0xEA	0x0419	#	CYRILLIC CAPITAL LETTER SHORT I
0xEB	0x041A	#	CYRILLIC CAPITAL LETTER KA
0xEC	0x041B	#	CYRILLIC CAPITAL LETTER EL
0xED	0x041C	#	CYRILLIC CAPITAL LETTER EM
0xEE	0x041D	#	CYRILLIC CAPITAL LETTER EN
0xEF	0x041E	#	CYRILLIC CAPITAL LETTER O
0xF0	0x041F	#	CYRILLIC CAPITAL LETTER PE
0xF1	0x042F	#	CYRILLIC CAPITAL LETTER YA
0xF2	0x0420	#	CYRILLIC CAPITAL LETTER ER
0xF3	0x0421	#	CYRILLIC CAPITAL LETTER ES
0xF4	0x0422	#	CYRILLIC CAPITAL LETTER TE
0xF5	0x0423	#	CYRILLIC CAPITAL LETTER U
0xF6	0x0416	#	CYRILLIC CAPITAL LETTER ZHE
0xF7	0x0412	#	CYRILLIC CAPITAL LETTER VE
0xF8	0x042C	#	CYRILLIC CAPITAL LETTER SOFT SIGN
0xF9	0x042B	#	CYRILLIC CAPITAL LETTER YERU
0xFA	0x0417	#	CYRILLIC CAPITAL LETTER ZE
0xFB	0x0428	#	CYRILLIC CAPITAL LETTER SHA
0xFC	0x042D	#	CYRILLIC CAPITAL LETTER E
0xFD	0x0429	#	CYRILLIC CAPITAL LETTER SHCHA
0xFE	0x0427	#	CYRILLIC CAPITAL LETTER CHE
0xFF	0x042A	#	CYRILLIC CAPITAL LETTER HARD SIGN
"#

/-- src/generated/single_byte/koi8-r_tables.rs.inc:1-72 -/
noncomputable def koi8_r_source : List Text := lines! r#"// This file is auto-generated.  Please see `encoding_tables/single_byte/`
// from the root directory for the files that generate this.

use {DecodeResult, EncodeResult};

pub fn decode_to_str<'a>(
    input: &[u8],
    out_buffer: &'a mut [u8],
) -> DecodeResult<'a> {
    super::ascii_ext_decode_to_str(&DECODE_TABLE, input, out_buffer)
}

pub fn encode_from_str<'a>(
    input: &str,
    out_buffer: &'a mut [u8],
) -> EncodeResult<'a> {
    super::ascii_ext_encode_from_str(&ENCODE_TABLE, input, out_buffer)
}

const DECODE_TABLE: [char; 128] = [
    '\u{2500}','\u{2502}','\u{250C}','\u{2510}','\u{2514}','\u{2518}','\u{251C}','\u{2524}',
    '\u{252C}','\u{2534}','\u{253C}','\u{2580}','\u{2584}','\u{2588}','\u{258C}','\u{2590}',
    '\u{2591}','\u{2592}','\u{2593}','\u{2320}','\u{25A0}','\u{2219}','\u{221A}','\u{2248}',
    '\u{2264}','\u{2265}','\u{00A0}','\u{2321}','\u{00B0}','\u{00B2}','\u{00B7}','\u{00F7}',
    '\u{2550}','\u{2551}','\u{2552}','\u{0451}','\u{2553}','\u{2554}','\u{2555}','\u{2556}',
    '\u{2557}','\u{2558}','\u{2559}','\u{255A}','\u{255B}','\u{255C}','\u{255D}','\u{255E}',
    '\u{255F}','\u{2560}','\u{2561}','\u{0401}','\u{2562}','\u{2563}','\u{2564}','\u{2565}',
    '\u{2566}','\u{2567}','\u{2568}','\u{2569}','\u{256A}','\u{256B}','\u{256C}','\u{00A9}',
    '\u{044E}','\u{0430}','\u{0431}','\u{0446}','\u{0434}','\u{0435}','\u{0444}','\u{0433}',
    '\u{0445}','\u{0438}','\u{0439}','\u{043A}','\u{043B}','\u{043C}','\u{043D}','\u{043E}',
    '\u{043F}','\u{044F}','\u{0440}','\u{0441}','\u{0442}','\u{0443}','\u{0436}','\u{0432}',
    '\u{044C}','\u{044B}','\u{0437}','\u{0448}','\u{044D}','\u{0449}','\u{0447}','\u{044A}',
    '\u{042E}','\u{0410}','\u{0411}','\u{0426}','\u{0414}','\u{0415}','\u{0424}','\u{0413}',
    '\u{0425}','\u{0418}','\u{0419}','\u{041A}','\u{041B}','\u{041C}','\u{041D}','\u{041E}',
    '\u{041F}','\u{042F}','\u{0420}','\u{0421}','\u{0422}','\u{0423}','\u{0416}','\u{0412}',
    '\u{042C}','\u{042B}','\u{0417}','\u{0428}','\u{042D}','\u{0429}','\u{0427}','\u{042A}',
];

const ENCODE_TABLE: [(char, u8); 128] = [
    ('\u{00A0}', 0x9A), ('\u{00A9}', 0xBF), ('\u{00B0}', 0x9C), ('\u{00B2}', 0x9D), 
    ('\u{00B7}', 0x9E), ('\u{00F7}', 0x9F), ('\u{0401}', 0xB3), ('\u{0410}', 0xE1), 
    ('\u{0411}', 0xE2), ('\u{0412}', 0xF7), ('\u{0413}', 0xE7), ('\u{0414}', 0xE4), 
    ('\u{0415}', 0xE5), ('\u{0416}', 0xF6), ('\u{0417}', 0xFA), ('\u{0418}', 0xE9), 
    ('\u{0419}', 0xEA), ('\u{041A}', 0xEB), ('\u{041B}', 0xEC), ('\u{041C}', 0xED), 
    ('\u{041D}', 0xEE), ('\u{041E}', 0xEF), ('\u{041F}', 0xF0), ('\u{0420}', 0xF2), 
    ('\u{0421}', 0xF3), ('\u{0422}', 0xF4), ('\u{0423}', 0xF5), ('\u{0424}', 0xE6), 
    ('\u{0425}', 0xE8), ('\u{0426}', 0xE3), ('\u{0427}', 0xFE), ('\u{0428}', 0xFB), 
    ('\u{0429}', 0xFD), ('\u{042A}', 0xFF), ('\u{042B}', 0xF9), ('\u{042C}', 0xF8), 
    ('\u{042D}', 0xFC), ('\u{042E}', 0xE0), ('\u{042F}', 0xF1), ('\u{0430}', 0xC1), 
    ('\u{0431}', 0xC2), ('\u{0432}', 0xD7), ('\u{0433}', 0xC7), ('\u{0434}', 0xC4), 
    ('\u{0435}', 0xC5), ('\u{0436}', 0xD6), ('\u{0437}', 0xDA), ('\u{0438}', 0xC9), 
    ('\u{0439}', 0xCA), ('\u{043A}', 0xCB), ('\u{043B}', 0xCC), ('\u{043C}', 0xCD), 
    ('\u{043D}', 0xCE), ('\u{043E}', 0xCF), ('\u{043F}', 0xD0), ('\u{0440}', 0xD2), 
    ('\u{0441}', 0xD3), ('\u{0442}', 0xD4), ('\u{0443}', 0xD5), ('\u{0444}', 0xC6), 
    ('\u{0445}', 0xC8), ('\u{0446}', 0xC3), ('\u{0447}', 0xDE), ('\u{0448}', 0xDB), 
    ('\u{0449}', 0xDD), ('\u{044A}', 0xDF), ('\u{044B}', 0xD9), ('\u{044C}', 0xD8), 
    ('\u{044D}', 0xDC), ('\u{044E}', 0xC0), ('\u{044F}', 0xD1), ('\u{0451}', 0xA3), 
    ('\u{2219}', 0x95), ('\u{221A}', 0x96), ('\u{2248}', 0x97), ('\u{2264}', 0x98), 
    ('\u{2265}', 0x99), ('\u{2320}', 0x93), ('\u{2321}', 0x9B), ('\u{2500}', 0x80), 
    ('\u{2502}', 0x81), ('\u{250C}', 0x82), ('\u{2510}', 0x83), ('\u{2514}', 0x84), 
    ('\u{2518}', 0x85), ('\u{251C}', 0x86), ('\u{2524}', 0x87), ('\u{252C}', 0x88), 
    ('\u{2534}', 0x89), ('\u{253C}', 0x8A), ('\u{2550}', 0xA0), ('\u{2551}', 0xA1), 
    ('\u{2552}', 0xA2), ('\u{2553}', 0xA4), ('\u{2554}', 0xA5), ('\u{2555}', 0xA6), 
    ('\u{2556}', 0xA7), ('\u{2557}', 0xA8), ('\u{2558}', 0xA9), ('\u{2559}', 0xAA), 
    ('\u{255A}', 0xAB), ('\u{255B}', 0xAC), ('\u{255C}', 0xAD), ('\u{255D}', 0xAE), 
    ('\u{255E}', 0xAF), ('\u{255F}', 0xB0), ('\u{2560}', 0xB1), ('\u{2561}', 0xB2), 
    ('\u{2562}', 0xB4), ('\u{2563}', 0xB5), ('\u{2564}', 0xB6), ('\u{2565}', 0xB7), 
    ('\u{2566}', 0xB8), ('\u{2567}', 0xB9), ('\u{2568}', 0xBA), ('\u{2569}', 0xBB), 
    ('\u{256A}', 0xBC), ('\u{256B}', 0xBD), ('\u{256C}', 0xBE), ('\u{2580}', 0x8B), 
    ('\u{2584}', 0x8C), ('\u{2588}', 0x8D), ('\u{258C}', 0x8E), ('\u{2590}', 0x8F), 
    ('\u{2591}', 0x90), ('\u{2592}', 0x91), ('\u{2593}', 0x92), ('\u{25A0}', 0x94), 
];
"#

/-- encoding_tables/single_byte/ascii_ext/koi8-u.txt:1-301 -/
noncomputable def koi8_u_mapping : List Text := lines! r#"# KOI8-U.TXT
# Date: 2016-01-04 23:09:00 GMT [KW]
# © 2016 Unicode®, Inc.
# For terms of use, see http://www.unicode.org/terms_of_use.html
#
#
#	Name:             KOI8-U (RFC2319) to Unicode
#	Unicode version:  5.1
#	Table version:    2.0
#	Table format:     Format A
#	Date:             13 October 2008 (header updated: 2016-January-04)
#	Authors:          Philippe Verdy <verdy_p AT wanadoo.fr>,
#	                  Helmut Richter <richter@lrz.de>
#
#	General notes:
#
#	This table contains the data the Unicode Consortium has on how
#	KOI8-U characters map into Unicode. The underlying document is the
#	mapping described in RFC 2319. No statements are made as to whether
#	this mapping is the same as the mapping defined as "Code Page 878"
#	with some vendors.
#
#	The KOI8-U (RFC2319) encoding is a variant based on KOI8-R (RFC1489),
#	where the support for four additional Cyrillic letters was added (both small
#	and capital letters), replacing 8 box-drawing characters. It is still widely
#	used to encode texts in Ukrainian, Byelorussian and Bulgarian.
#
#	Format:  Three tab-separated columns
#		 Column #1 is the KOI8-U code (in hex as 0xXX)
#		 Column #2 is the Unicode (in hex as 0xXXXX)
#		 Column #3 the Unicode name (follows a comment sign, '#')
#
#	The entries are in KOI8-U order.
#
#	Version history
#	1.0 version: created.
#   2.0 version: updates to copyright notice and terms of use; no
#       changes to character mappings
#
#	Updated versions of this file may be found in:
#		<http://www.unicode.org/Public/MAPPINGS/>
#
#	Any comments or problems, contact the Unicode Consortium at:
#	        <http://www.unicode.org/reporting.html>
#
0x00	0x0000	#	NULL
0x01	0x0001	#	START OF HEADING
0x02	0x0002	#	START OF TEXT
0x03	0x0003	#	END OF TEXT
0x04	0x0004	#	END OF TRANSMISSION
0x05	0x0005	#	ENQUIRY
0x06	0x0006	#	ACKNOWLEDGE
0x07	0x0007	#	BELL
0x08	0x0008	#	BACKSPACE
0x09	0x0009	#	HORIZONTAL TABULATION
0x0A	0x000A	#	LINE FEED
0x0B	0x000B	#	VERTICAL TABULATION
0x0C	0x000C	#	FORM FEED
0x0D	0x000D	#	CARRIAGE RETURN
0x0E	0x000E	#	SHIFT OUT
0x0F	0x000F	#	SHIFT IN
0x10	0x0010	#	DATA LINK ESCAPE
0x11	0x0011	#	DEVICE CONTROL ONE
0x12	0x0012	#	DEVICE CONTROL TWO
0x13	0x0013	#	DEVICE CONTROL THREE
0x14	0x0014	#	DEVICE CONTROL FOUR
0x15	0x0015	#	NEGATIVE ACKNOWLEDGE
0x16	0x0016	#	SYNCHRONOUS IDLE
0x17	0x0017	#	END OF TRANSMISSION BLOCK
0x18	0x0018	#	CANCEL
0x19	0x0019	#	END OF MEDIUM
0x1A	0x001A	#	SUBSTITUTE
0x1B	0x001B	#	ESCAPE
0x1C	0x001C	#	FILE SEPARATOR
0x1D	0x001D	#	GROUP SEPARATOR
0x1E	0x001E	#	RECORD SEPARATOR
0x1F	0x001F	#	UNIT SEPARATOR
0x20	0x0020	#	SPACE
0x21	0x0021	#	EXCLAMATION MARK
0x22	0x0022	#	QUOTATION MARK
0x23	0x0023	#	NUMBER SIGN
0x24	0x0024	#	DOLLAR SIGN
0x25	0x0025	#	PERCENT SIGN
0x26	0x0026	#	AMPERSAND
0x27	0x0027	#	APOSTROPHE
0x28	0x0028	#	LEFT PARENTHESIS
0x29	0x0029	#	RIGHT PARENTHESIS
0x2A	0x002A	#	ASTERISK
0x2B	0x002B	#	PLUS SIGN
0x2C	0x002C	#	COMMA
0x2D	0x002D	#	HYPHEN-MINUS
0x2E	0x002E	#	FULL STOP
0x2F	0x002F	#	SOLIDUS
0x30	0x0030	#	DIGIT ZERO
0x31	0x0031	#	DIGIT ONE
0x32	0x0032	#	DIGIT TWO
0x33	0x0033	#	DIGIT THREE
0x34	0x0034	#	DIGIT FOUR
0x35	0x0035	#	DIGIT FIVE
0x36	0x0036	#	DIGIT SIX
0x37	0x0037	#	DIGIT SEVEN
0x38	0x0038	#	DIGIT EIGHT
0x39	0x0039	#	DIGIT NINE
0x3A	0x003A	#	COLON
0x3B	0x003B	#	SEMICOLON
0x3C	0x003C	#	LESS-THAN SIGN
0x3D	0x003D	#	EQUALS SIGN
0x3E	0x003E	#	GREATER-THAN SIGN
0x3F	0x003F	#	QUESTION MARK
0x40	0x0040	#	COMMERCIAL AT
0x41	0x0041	#	LATIN CAPITAL LETTER A
0x42	0x0042	#	LATIN CAPITAL LETTER B
0x43	0x0043	#	LATIN CAPITAL LETTER C
0x44	0x0044	#	LATIN CAPITAL LETTER D
0x45	0x0045	#	LATIN CAPITAL LETTER E
0x46	0x0046	#	LATIN CAPITAL LETTER F
0x47	0x0047	#	LATIN CAPITAL LETTER G
0x48	0x0048	#	LATIN CAPITAL LETTER H
0x49	0x0049	#	LATIN CAPITAL LETTER I
0x4A	0x004A	#	LATIN CAPITAL LETTER J
0x4B	0x004B	#	LATIN CAPITAL LETTER K
0x4C	0x004C	#	LATIN CAPITAL LETTER L
0x4D	0x004D	#	LATIN CAPITAL LETTER M
0x4E	0x004E	#	LATIN CAPITAL LETTER N
0x4F	0x004F	#	LATIN CAPITAL LETTER O
0x50	0x0050	#	LATIN CAPITAL LETTER P
0x51	0x0051	#	LATIN CAPITAL LETTER Q
0x52	0x0052	#	LATIN CAPITAL LETTER R
0x53	0x0053	#	LATIN CAPITAL LETTER S
0x54	0x0054	#	LATIN CAPITAL LETTER T
0x55	0x0055	#	LATIN CAPITAL LETTER U
0x56	0x0056	#	LATIN CAPITAL LETTER V
0x57	0x0057	#	LATIN CAPITAL LETTER W
0x58	0x0058	#	LATIN CAPITAL LETTER X
0x59	0x0059	#	LATIN CAPITAL LETTER Y
0x5A	0x005A	#	LATIN CAPITAL LETTER Z
0x5B	0x005B	#	LEFT SQUARE BRACKET
0x5C	0x005C	#	REVERSE SOLIDUS
0x5D	0x005D	#	RIGHT SQUARE BRACKET
0x5E	0x005E	#	CIRCUMFLEX ACCENT
0x5F	0x005F	#	LOW LINE
0x60	0x0060	#	GRAVE ACCENT
0x61	0x0061	#	LATIN SMALL LETTER A
0x62	0x0062	#	LATIN SMALL LETTER B
0x63	0x0063	#	LATIN SMALL LETTER C
0x64	0x0064	#	LATIN SMALL LETTER D
0x65	0x0065	#	LATIN SMALL LETTER E
0x66	0x0066	#	LATIN SMALL LETTER F
0x67	0x0067	#	LATIN SMALL LETTER G
0x68	0x0068	#	LATIN SMALL LETTER H
0x69	0x0069	#	LATIN SMALL LETTER I
0x6A	0x006A	#	LATIN SMALL LETTER J
0x6B	0x006B	#	LATIN SMALL LETTER K
0x6C	0x006C	#	LATIN SMALL LETTER L
0x6D	0x006D	#	LATIN SMALL LETTER M
0x6E	0x006E	#	LATIN SMALL LETTER N
0x6F	0x006F	#	LATIN SMALL LETTER O
0x70	0x0070	#	LATIN SMALL LETTER P
0x71	0x0071	#	LATIN SMALL LETTER Q
0x72	0x0072	#	LATIN SMALL LETTER R
0x73	0x0073	#	LATIN SMALL LETTER S
0x74	0x0074	#	LATIN SMALL LETTER T
0x75	0x0075	#	LATIN SMALL LETTER U
0x76	0x0076	#	LATIN SMALL LETTER V
0x77	0x0077	#	LATIN SMALL LETTER W
0x78	0x0078	#	LATIN SMALL LETTER X
0x79	0x0079	#	LATIN SMALL LETTER Y
0x7A	0x007A	#	LATIN SMALL LETTER Z
0x7B	0x007B	#	LEFT CURLY BRACKET
0x7C	0x007C	#	VERTICAL LINE
0x7D	0x007D	#	RIGHT CURLY BRACKET
0x7E	0x007E	#	TILDE
0x7F	0x007F	#	DELETE
0x80	0x2500	#	BOX DRAWINGS LIGHT HORIZONTAL
0x81	0x2502	#	BOX DRAWINGS LIGHT VERTICAL
0x82	0x250C	#	BOX DRAWINGS LIGHT DOWN AND RIGHT
0x83	0x2510	#	BOX DRAWINGS LIGHT DOWN AND LEFT
0x84	0x2514	#	BOX DRAWINGS LIGHT UP AND RIGHT
0x85	0x2518	#	BOX DRAWINGS LIGHT UP AND LEFT
0x86	0x251C	#	BOX DRAWINGS LIGHT VERTICAL AND RIGHT
0x87	0x2524	#	BOX DRAWINGS LIGHT VERTICAL AND LEFT
0x88	0x252C	#	BOX DRAWINGS LIGHT DOWN AND HORIZONTAL
0x89	0x2534	#	BOX DRAWINGS LIGHT UP AND HORIZONTAL
0x8A	0x253C	#	BOX DRAWINGS LIGHT VERTICAL AND HORIZONTAL
0x8B	0x2580	#	UPPER HALF BLOCK
0x8C	0x2584	#	LOWER HALF BLOCK
0x8D	0x2588	#	FULL BLOCK
0x8E	0x258C	#	LEFT HALF BLOCK
0x8F	0x2590	#	RIGHT HALF BLOCK
0x90	0x2591	#	LIGHT SHADE
0x91	0x2592	#	MEDIUM SHADE
0x92	0x2593	#	DARK SHADE
0x93	0x2320	#	TOP HALF INTEGRAL
0x94	0x25A0	#	BLACK SQUARE
0x95	0x2219	#	BULLET OPERATOR
0x96	0x221A	#	SQUARE ROOT
0x97	0x2248	#	ALMOST EQUAL TO
0x98	0x2264	#	LESS-THAN OR EQUAL TO
0x99	0x2265	#	GREATER-THAN OR EQUAL TO
0x9A	0x00A0	#	NO-BREAK SPACE
0x9B	0x2321	#	BOTTOM HALF INTEGRAL
0x9C	0x00B0	#	DEGREE SIGN
0x9D	0x00B2	#	SUPERSCRIPT TWO
0x9E	0x00B7	#	MIDDLE DOT
0x9F	0x00F7	#	DIVISION SIGN
0xA0	0x2550	#	BOX DRAWINGS DOUBLE HORIZONTAL
0xA1	0x2551	#	BOX DRAWINGS DOUBLE VERTICAL
0xA2	0x2552	#	BOX DRAWINGS DOWN SINGLE AND RIGHT DOUBLE
0xA3	0x0451	#	CYRILLIC SMALL LETTER IO
0xA4	0x0454	#	CYRILLIC SMALL LETTER UKRAINIAN IE
0xA5	0x2554	#	BOX DRAWINGS DOUBLE DOWN AND RIGHT
0xA6	0x0456	#	CYRILLIC SMALL LETTER BYELORUSSIAN-UKRAINIAN I
0xA7	0x0457	#	CYRILLIC SMALL LETTER YI (UKRAINIAN)
0xA8	0x2557	#	BOX DRAWINGS DOUBLE DOWN AND LEFT
0xA9	0x2558	#	BOX DRAWINGS UP SINGLE AND RIGHT DOUBLE
0xAA	0x2559	#	BOX DRAWINGS UP DOUBLE AND RIGHT SINGLE
0xAB	0x255A	#	BOX DRAWINGS DOUBLE UP AND RIGHT
0xAC	0x255B	#	BOX DRAWINGS UP SINGLE AND LEFT DOUBLE
0xAD	0x0491	#	CYRILLIC SMALL LETTER GHE WITH UPTURN
0xAE	0x255D	#	BOX DRAWINGS DOUBLE UP AND LEFT
0xAF	0x255E	#	BOX DRAWINGS VERTICAL SINGLE AND RIGHT DOUBLE
0xB0	0x255F	#	BOX DRAWINGS VERTICAL DOUBLE AND RIGHT SINGLE
0xB1	0x2560	#	BOX DRAWINGS DOUBLE VERTICAL AND RIGHT
0xB2	0x2561	#	BOX DRAWINGS VERTICAL SINGLE AND LEFT DOUBLE
0xB3	0x0401	#	CYRILLIC CAPITAL LETTER IO
0xB4	0x0404	#	CYRILLIC CAPITAL LETTER UKRAINIAN IE
0xB5	0x2563	#	BOX DRAWINGS DOUBLE VERTICAL AND LEFT
0xB6	0x0406	#	CYRILLIC CAPITAL LETTER BYELORUSSIAN-UKRAINIAN I
0xB7	0x0407	#	CYRILLIC CAPITAL LETTER YI (UKRAINIAN)
0xB8	0x2566	#	BOX DRAWINGS DOUBLE DOWN AND HORIZONTAL
0xB9	0x2567	#	BOX DRAWINGS UP SINGLE AND HORIZONTAL DOUBLE
0xBA	0x2568	#	BOX DRAWINGS UP DOUBLE AND HORIZONTAL SINGLE
0xBB	0x2569	#	BOX DRAWINGS DOUBLE UP AND HORIZONTAL
0xBC	0x256A	#	BOX DRAWINGS VERTICAL SINGLE AND HORIZONTAL DOUBLE
0xBD	0x0490	#	CYRILLIC CAPITAL LETTER GHE WITH UPTURN
0xBE	0x256C	#	BOX DRAWINGS DOUBLE VERTICAL AND HORIZONTAL
0xBF	0x00A9	#	COPYRIGHT SIGN
0xC0	0x044E	#	CYRILLIC SMALL LETTER YU
0xC1	0x0430	#	CYRILLIC SMALL LETTER A
0xC2	0x0431	#	CYRILLIC SMALL LETTER BE
0xC3	0x0446	#	CYRILLIC SMALL LETTER TSE
0xC4	0x0434	#	CYRILLIC SMALL LETTER DE
0xC5	0x0435	#	CYRILLIC SMALL LETTER IE
0xC6	0x0444	#	CYRILLIC SMALL LETTER EF
0xC7	0x0433	#	CYRILLIC SMALL LETTER GHE
0xC8	0x0445	#	CYRILLIC SMALL LETTER HA
0xC9	0x0438	#	CYRILLIC SMALL LETTER I
0xCA	0x0439	#	CYRILLIC SMALL LETTER SHORT I
0xCB	0x043A	#	CYRILLIC SMALL LETTER KA
0xCC	0x043B	#	CYRILLIC SMALL LETTER EL
0xCD	0x043C	#	CYRILLIC SMALL LETTER EM
0xCE	0x043D	#	CYRILLIC SMALL LETTER EN
0xCF	0x043E	#	CYRILLIC SMALL LETTER O
0xD0	0x043F	#	CYRILLIC SMALL LETTER PE
0xD1	0x044F	#	CYRILLIC SMALL LETTER YA
0xD2	0x0440	#	CYRILLIC SMALL LETTER ER
0xD3	0x0441	#	CYRILLIC SMALL LETTER ES
0xD4	0x0442	#	CYRILLIC SMALL LETTER TE
0xD5	0x0443	#	CYRILLIC SMALL LETTER U
0xD6	0x0436	#	CYRILLIC SMALL LETTER ZHE
0xD7	0x0432	#	CYRILLIC SMALL LETTER VE
0xD8	0x044C	#	CYRILLIC SMALL LETTER SOFT SIGN
0xD9	0x044B	#	CYRILLIC SMALL LETTER YERU
0xDA	0x0437	#	CYRILLIC SMALL LETTER ZE
0xDB	0x0448	#	CYRILLIC SMALL LETTER SHA
0xDC	0x044D	#	CYRILLIC SMALL LETTER E
0xDD	0x0449	#	CYRILLIC SMALL LETTER SHCHA
0xDE	0x0447	#	CYRILLIC SMALL LETTER CHE
0xDF	0x044A	#	CYRILLIC SMALL LETTER HARD SIGN
0xE0	0x042E	#	CYRILLIC CAPITAL LETTER YU
0xE1	0x0410	#	CYRILLIC CAPITAL LETTER A
0xE2	0x0411	#	CYRILLIC CAPITAL LETTER BE
0xE3	0x0426	#	CYRILLIC CAPITAL LETTER TSE
0xE4	0x0414	#	CYRILLIC CAPITAL LETTER DE
0xE5	0x0415	#	CYRILLIC CAPITAL LETTER IE
0xE6	0x0424	#	CYRILLIC CAPITAL LETTER EF
0xE7	0x0413	#	CYRILLIC CAPITAL LETTER GHE
0xE8	0x0425	#	CYRILLIC CAPITAL LETTER HA
0xE9	0x0418	#	CYRILLIC CAPITAL LETTER I
0xEA	0x0419	#	CYRILLIC CAPITAL LETTER SHORT I
0xEB	0x041A	#	CYRILLIC CAPITAL LETTER KA
0xEC	0x041B	#	CYRILLIC CAPITAL LETTER EL
0xED	0x041C	#	CYRILLIC CAPITAL LETTER EM
0xEE	0x041D	#	CYRILLIC CAPITAL LETTER EN
0xEF	0x041E	#	CYRILLIC CAPITAL LETTER O
0xF0	0x041F	#	CYRILLIC CAPITAL LETTER PE
0xF1	0x042F	#	CYRILLIC CAPITAL LETTER YA
0xF2	0x0420	#	CYRILLIC CAPITAL LETTER ER
0xF3	0x0421	#	CYRILLIC CAPITAL LETTER ES
0xF4	0x0422	#	CYRILLIC CAPITAL LETTER TE
0xF5	0x0423	#	CYRILLIC CAPITAL LETTER U
0xF6	0x0416	#	CYRILLIC CAPITAL LETTER ZHE
0xF7	0x0412	#	CYRILLIC CAPITAL LETTER VE
0xF8	0x042C	#	CYRILLIC CAPITAL LETTER SOFT SIGN
0xF9	0x042B	#	CYRILLIC CAPITAL LETTER YERU
0xFA	0x0417	#	CYRILLIC CAPITAL LETTER ZE
0xFB	0x0428	#	CYRILLIC CAPITAL LETTER SHA
0xFC	0x042D	#	CYRILLIC CAPITAL LETTER E
0xFD	0x0429	#	CYRILLIC CAPITAL LETTER SHCHA
0xFE	0x0427	#	CYRILLIC CAPITAL LETTER CHE
0xFF	0x042A	#	CYRILLIC CAPITAL LETTER HARD SIGN
"#

/-- src/generated/single_byte/koi8-u_tables.rs.inc:1-72 -/
noncomputable def koi8_u_source : List Text := lines! r#"// This file is auto-generated.  Please see `encoding_tables/single_byte/`
// from the root directory for the files that generate this.

use {DecodeResult, EncodeResult};

pub fn decode_to_str<'a>(
    input: &[u8],
    out_buffer: &'a mut [u8],
) -> DecodeResult<'a> {
    super::ascii_ext_decode_to_str(&DECODE_TABLE, input, out_buffer)
}

pub fn encode_from_str<'a>(
    input: &str,
    out_buffer: &'a mut [u8],
) -> EncodeResult<'a> {
    super::ascii_ext_encode_from_str(&ENCODE_TABLE, input, out_buffer)
}

const DECODE_TABLE: [char; 128] = [
    '\u{2500}','\u{2502}','\u{250C}','\u{2510}','\u{2514}','\u{2518}','\u{251C}','\u{2524}',
    '\u{252C}','\u{2534}','\u{253C}','\u{2580}','\u{2584}','\u{2588}','\u{258C}','\u{2590}',
    '\u{2591}','\u{2592}','\u{2593}','\u{2320}','\u{25A0}','\u{2219}','\u{221A}','\u{2248}',
    '\u{2264}','\u{2265}','\u{00A0}','\u{2321}','\u{00B0}','\u{00B2}','\u{00B7}','\u{00F7}',
    '\u{2550}','\u{2551}','\u{2552}','\u{0451}','\u{0454}','\u{2554}','\u{0456}','\u{0457}',
    '\u{2557}','\u{2558}','\u{2559}','\u{255A}','\u{255B}','\u{0491}','\u{255D}','\u{255E}',
    '\u{255F}','\u{2560}','\u{2561}','\u{0401}','\u{0404}','\u{2563}','\u{0406}','\u{0407}',
    '\u{2566}','\u{2567}','\u{2568}','\u{2569}','\u{256A}','\u{0490}','\u{256C}','\u{00A9}',
    '\u{044E}','\u{0430}','\u{0431}','\u{0446}','\u{0434}','\u{0435}','\u{0444}','\u{0433}',
    '\u{0445}','\u{0438}','\u{0439}','\u{043A}','\u{043B}','\u{043C}','\u{043D}','\u{043E}',
    '\u{043F}','\u{044F}','\u{0440}','\u{0441}','\u{0442}','\u{0443}','\u{0436}','\u{0432}',
    '\u{044C}','\u{044B}','\u{0437}','\u{0448}','\u{044D}','\u{0449}','\u{0447}','\u{044A}',
    '\u{042E}','\u{0410}','\u{0411}','\u{0426}','\u{0414}','\u{0415}','\u{0424}','\u{0413}',
    '\u{0425}','\u{0418}','\u{0419}','\u{041A}','\u{041B}','\u{041C}','\u{041D}','\u{041E}',
    '\u{041F}','\u{042F}','\u{0420}','\u{0421}','\u{0422}','\u{0423}','\u{0416}','\u{0412}',
    '\u{042C}','\u{042B}','\u{0417}','\u{0428}','\u{042D}','\u{0429}','\u{0427}','\u{042A}',
];

const ENCODE_TABLE: [(char, u8); 128] = [
    ('\u{00A0}', 0x9A), ('\u{00A9}', 0xBF), ('\u{00B0}', 0x9C), ('\u{00B2}', 0x9D), 
    ('\u{00B7}', 0x9E), ('\u{00F7}', 0x9F), ('\u{0401}', 0xB3), ('\u{0404}', 0xB4), 
    ('\u{0406}', 0xB6), ('\u{0407}', 0xB7), ('\u{0410}', 0xE1), ('\u{0411}', 0xE2), 
    ('\u{0412}', 0xF7), ('\u{0413}', 0xE7), ('\u{0414}', 0xE4), ('\u{0415}', 0xE5), 
    ('\u{0416}', 0xF6), ('\u{0417}', 0xFA), ('\u{0418}', 0xE9), ('\u{0419}', 0xEA), 
    ('\u{041A}', 0xEB), ('\u{041B}', 0xEC), ('\u{041C}', 0xED), ('\u{041D}', 0xEE), 
    ('\u{041E}', 0xEF), ('\u{041F}', 0xF0), ('\u{0420}', 0xF2), ('\u{0421}', 0xF3), 
    ('\u{0422}', 0xF4), ('\u{0423}', 0xF5), ('\u{0424}', 0xE6), ('\u{0425}', 0xE8), 
    ('\u{0426}', 0xE3), ('\u{0427}', 0xFE), ('\u{0428}', 0xFB), ('\u{0429}', 0xFD), 
    ('\u{042A}', 0xFF), ('\u{042B}', 0xF9), ('\u{042C}', 0xF8), ('\u{042D}', 0xFC), 
    ('\u{042E}', 0xE0), ('\u{042F}', 0xF1), ('\u{0430}', 0xC1), ('\u{0431}', 0xC2), 
    ('\u{0432}', 0xD7), ('\u{0433}', 0xC7), ('\u{0434}', 0xC4), ('\u{0435}', 0xC5), 
    ('\u{0436}', 0xD6), ('\u{0437}', 0xDA), ('\u{0438}', 0xC9), ('\u{0439}', 0xCA), 
    ('\u{043A}', 0xCB), ('\u{043B}', 0xCC), ('\u{043C}', 0xCD), ('\u{043D}', 0xCE), 
    ('\u{043E}', 0xCF), ('\u{043F}', 0xD0), ('\u{0440}', 0xD2), ('\u{0441}', 0xD3), 
    ('\u{0442}', 0xD4), ('\u{0443}', 0xD5), ('\u{0444}', 0xC6), ('\u{0445}', 0xC8), 
    ('\u{0446}', 0xC3), ('\u{0447}', 0xDE), ('\u{0448}', 0xDB), ('\u{0449}', 0xDD), 
    ('\u{044A}', 0xDF), ('\u{044B}', 0xD9), ('\u{044C}', 0xD8), ('\u{044D}', 0xDC), 
    ('\u{044E}', 0xC0), ('\u{044F}', 0xD1), ('\u{0451}', 0xA3), ('\u{0454}', 0xA4), 
    ('\u{0456}', 0xA6), ('\u{0457}', 0xA7), ('\u{0490}', 0xBD), ('\u{0491}', 0xAD), 
    ('\u{2219}', 0x95), ('\u{221A}', 0x96), ('\u{2248}', 0x97), ('\u{2264}', 0x98), 
    ('\u{2265}', 0x99), ('\u{2320}', 0x93), ('\u{2321}', 0x9B), ('\u{2500}', 0x80), 
    ('\u{2502}', 0x81), ('\u{250C}', 0x82), ('\u{2510}', 0x83), ('\u{2514}', 0x84), 
    ('\u{2518}', 0x85), ('\u{251C}', 0x86), ('\u{2524}', 0x87), ('\u{252C}', 0x88), 
    ('\u{2534}', 0x89), ('\u{253C}', 0x8A), ('\u{2550}', 0xA0), ('\u{2551}', 0xA1), 
    ('\u{2552}', 0xA2), ('\u{2554}', 0xA5), ('\u{2557}', 0xA8), ('\u{2558}', 0xA9), 
    ('\u{2559}', 0xAA), ('\u{255A}', 0xAB), ('\u{255B}', 0xAC), ('\u{255D}', 0xAE), 
    ('\u{255E}', 0xAF), ('\u{255F}', 0xB0), ('\u{2560}', 0xB1), ('\u{2561}', 0xB2), 
    ('\u{2563}', 0xB5), ('\u{2566}', 0xB8), ('\u{2567}', 0xB9), ('\u{2568}', 0xBA), 
    ('\u{2569}', 0xBB), ('\u{256A}', 0xBC), ('\u{256C}', 0xBE), ('\u{2580}', 0x8B), 
    ('\u{2584}', 0x8C), ('\u{2588}', 0x8D), ('\u{258C}', 0x8E), ('\u{2590}', 0x8F), 
    ('\u{2591}', 0x90), ('\u{2592}', 0x91), ('\u{2593}', 0x92), ('\u{25A0}', 0x94), 
];
"#

/-- encoding_tables/single_byte/ascii_ext/mac-roman.txt:1-260 -/
noncomputable def mac_roman_mapping : List Text := lines! r#"# This table is derived from index-macintosh.txt from the WHATWG Encoding Standard
# https://encoding.spec.whatwg.org/

# Mac   Unicode
0x00    0x0000
0x01    0x0001
0x02    0x0002
0x03    0x0003
0x04    0x0004
0x05    0x0005
0x06    0x0006
0x07    0x0007
0x08    0x0008
0x09    0x0009
0x0A    0x000A
0x0B    0x000B
0x0C    0x000C
0x0D    0x000D
0x0E    0x000E
0x0F    0x000F
0x10    0x0010
0x11    0x0011
0x12    0x0012
0x13    0x0013
0x14    0x0014
0x15    0x0015
0x16    0x0016
0x17    0x0017
0x18    0x0018
0x19    0x0019
0x1A    0x001A
0x1B    0x001B
0x1C    0x001C
0x1D    0x001D
0x1E    0x001E
0x1F    0x001F
0x20    0x0020
0x21    0x0021
0x22    0x0022
0x23    0x0023
0x24    0x0024
0x25    0x0025
0x26    0x0026
0x27    0x0027
0x28    0x0028
0x29    0x0029
0x2A    0x002A
0x2B    0x002B
0x2C    0x002C
0x2D    0x002D
0x2E    0x002E
0x2F    0x002F
0x30    0x0030
0x31    0x0031
0x32    0x0032
0x33    0x0033
0x34    0x0034
0x35    0x0035
0x36    0x0036
0x37    0x0037
0x38    0x0038
0x39    0x0039
0x3A    0x003A
0x3B    0x003B
0x3C    0x003C
0x3D    0x003D
0x3E    0x003E
0x3F    0x003F
0x40    0x0040
0x41    0x0041
0x42    0x0042
0x43    0x0043
0x44    0x0044
0x45    0x0045
0x46    0x0046
0x47    0x0047
0x48    0x0048
0x49    0x0049
0x4A    0x004A
0x4B    0x004B
0x4C    0x004C
0x4D    0x004D
0x4E    0x004E
0x4F    0x004F
0x50    0x0050
0x51    0x0051
0x52    0x0052
0x53    0x0053
0x54    0x0054
0x55    0x0055
0x56    0x0056
0x57    0x0057
0x58    0x0058
0x59    0x0059
0x5A    0x005A
0x5B    0x005B
0x5C    0x005C
0x5D    0x005D
0x5E    0x005E
0x5F    0x005F
0x60    0x0060
0x61    0x0061
0x62    0x0062
0x63    0x0063
0x64    0x0064
0x65    0x0065
0x66    0x0066
0x67    0x0067
0x68    0x0068
0x69    0x0069
0x6A    0x006A
0x6B    0x006B
0x6C    0x006C
0x6D    0x006D
0x6E    0x006E
0x6F    0x006F
0x70    0x0070
0x71    0x0071
0x72    0x0072
0x73    0x0073
0x74    0x0074
0x75    0x0075
0x76    0x0076
0x77    0x0077
0x78    0x0078
0x79    0x0079
0x7A    0x007A
0x7B    0x007B
0x7C    0x007C
0x7D    0x007D
0x7E    0x007E
0x7F    0x007F
0x80    0x00C4  Ä (LATIN CAPITAL LETTER A WITH DIAERESIS)
0x81    0x00C5  Å (LATIN CAPITAL LETTER A WITH RING ABOVE)
0x82    0x00C7  Ç (LATIN CAPITAL LETTER C WITH CEDILLA)
0x83    0x00C9  É (LATIN CAPITAL LETTER E WITH ACUTE)
0x84    0x00D1  Ñ (LATIN CAPITAL LETTER N WITH TILDE)
0x85    0x00D6  Ö (LATIN CAPITAL LETTER O WITH DIAERESIS)
0x86    0x00DC  Ü (LATIN CAPITAL LETTER U WITH DIAERESIS)
0x87    0x00E1  á (LATIN SMALL LETTER A WITH ACUTE)
0x88    0x00E0  à (LATIN SMALL LETTER A WITH GRAVE)
0x89    0x00E2  â (LATIN SMALL LETTER A WITH CIRCUMFLEX)
0x8A    0x00E4  ä (LATIN SMALL LETTER A WITH DIAERESIS)
0x8B    0x00E3  ã (LATIN SMALL LETTER A WITH TILDE)
0x8C    0x00E5  å (LATIN SMALL LETTER A WITH RING ABOVE)
0x8D    0x00E7  ç (LATIN SMALL LETTER C WITH CEDILLA)
0x8E    0x00E9  é (LATIN SMALL LETTER E WITH ACUTE)
0x8F    0x00E8  è (LATIN SMALL LETTER E WITH GRAVE)
0x90    0x00EA  ê (LATIN SMALL LETTER E WITH CIRCUMFLEX)
0x91    0x00EB  ë (LATIN SMALL LETTER E WITH DIAERESIS)
0x92    0x00ED  í (LATIN SMALL LETTER I WITH ACUTE)
0x93    0x00EC  ì (LATIN SMALL LETTER I WITH GRAVE)
0x94    0x00EE  î (LATIN SMALL LETTER I WITH CIRCUMFLEX)
0x95    0x00EF  ï (LATIN SMALL LETTER I WITH DIAERESIS)
0x96    0x00F1  ñ (LATIN SMALL LETTER N WITH TILDE)
0x97    0x00F3  ó (LATIN SMALL LETTER O WITH ACUTE)
0x98    0x00F2  ò (LATIN SMALL LETTER O WITH GRAVE)
0x99    0x00F4  ô (LATIN SMALL LETTER O WITH CIRCUMFLEX)
0x9A    0x00F6  ö (LATIN SMALL LETTER O WITH DIAERESIS)
0x9B    0x00F5  õ (LATIN SMALL LETTER O WITH TILDE)
0x9C    0x00FA  ú (LATIN SMALL LETTER U WITH ACUTE)
0x9D    0x00F9  ù (LATIN SMALL LETTER U WITH GRAVE)
0x9E    0x00FB  û (LATIN SMALL LETTER U WITH CIRCUMFLEX)
0x9F    0x00FC  ü (LATIN SMALL LETTER U WITH DIAERESIS)
0xA0    0x2020  † (DAGGER)
0xA1    0x00B0  ° (DEGREE SIGN)
0xA2    0x00A2  ¢ (CENT SIGN)
0xA3    0x00A3  £ (POUND SIGN)
0xA4    0x00A7  § (SECTION SIGN)
0xA5    0x2022  • (BULLET)
0xA6    0x00B6  ¶ (PILCROW SIGN)
0xA7    0x00DF  ß (LATIN SMALL LETTER SHARP S)
0xA8    0x00AE  ® (REGISTERED SIGN)
0xA9    0x00A9  © (COPYRIGHT SIGN)
0xAA    0x2122  ™ (TRADE MARK SIGN)
0xAB    0x00B4  ´ (ACUTE ACCENT)
0xAC    0x00A8  ¨ (DIAERESIS)
0xAD    0x2260  ≠ (NOT EQUAL TO)
0xAE    0x00C6  Æ (LATIN CAPITAL LETTER AE)
0xAF    0x00D8  Ø (LATIN CAPITAL LETTER O WITH STROKE)
0xB0    0x221E  ∞ (INFINITY)
0xB1    0x00B1  ± (PLUS-MINUS SIGN)
0xB2    0x2264  ≤ (LESS-THAN OR EQUAL TO)
0xB3    0x2265  ≥ (GREATER-THAN OR EQUAL TO)
0xB4    0x00A5  ¥ (YEN SIGN)
0xB5    0x00B5  µ (MICRO SIGN)
0xB6    0x2202  ∂ (PARTIAL DIFFERENTIAL)
0xB7    0x2211  ∑ (N-ARY SUMMATION)
0xB8    0x220F  ∏ (N-ARY PRODUCT)
0xB9    0x03C0  π (GREEK SMALL LETTER PI)
0xBA    0x222B  ∫ (INTEGRAL)
0xBB    0x00AA  ª (FEMININE ORDINAL INDICATOR)
0xBC    0x00BA  º (MASCULINE ORDINAL INDICATOR)
0xBD    0x03A9  Ω (GREEK CAPITAL LETTER OMEGA)
0xBE    0x00E6  æ (LATIN SMALL LETTER AE)
0xBF    0x00F8  ø (LATIN SMALL LETTER O WITH STROKE)
0xC0    0x00BF  ¿ (INVERTED QUESTION MARK)
0xC1    0x00A1  ¡ (INVERTED EXCLAMATION MARK)
0xC2    0x00AC  ¬ (NOT SIGN)
0xC3    0x221A  √ (SQUARE ROOT)
0xC4    0x0192  ƒ (LATIN SMALL LETTER F WITH HOOK)
0xC5    0x2248  ≈ (ALMOST EQUAL TO)
0xC6    0x2206  ∆ (INCREMENT)
0xC7    0x00AB  « (LEFT-POINTING DOUBLE ANGLE QUOTATION MARK)
0xC8    0x00BB  » (RIGHT-POINTING DOUBLE ANGLE QUOTATION MARK)
0xC9    0x2026  … (HORIZONTAL ELLIPSIS)
0xCA    0x00A0    (NO-BREAK SPACE)
0xCB    0x00C0  À (LATIN CAPITAL LETTER A WITH GRAVE)
0xCC    0x00C3  Ã (LATIN CAPITAL LETTER A WITH TILDE)
0xCD    0x00D5  Õ (LATIN CAPITAL LETTER O WITH TILDE)
0xCE    0x0152  Œ (LATIN CAPITAL LIGATURE OE)
0xCF    0x0153  œ (LATIN SMALL LIGATURE OE)
0xD0    0x2013  – (EN DASH)
0xD1    0x2014  — (EM DASH)
0xD2    0x201C  “ (LEFT DOUBLE QUOTATION MARK)
0xD3    0x201D  ” (RIGHT DOUBLE QUOTATION MARK)
0xD4    0x2018  ‘ (LEFT SINGLE QUOTATION MARK)
0xD5    0x2019  ’ (RIGHT SINGLE QUOTATION MARK)
0xD6    0x00F7  ÷ (DIVISION SIGN)
0xD7    0x25CA  ◊ (LOZENGE)
0xD8    0x00FF  ÿ (LATIN SMALL LETTER Y WITH DIAERESIS)
0xD9    0x0178  Ÿ (LATIN CAPITAL LETTER Y WITH DIAERESIS)
0xDA    0x2044  ⁄ (FRACTION SLASH)
0xDB    0x20AC  € (EURO SIGN)
0xDC    0x2039  ‹ (SINGLE LEFT-POINTING ANGLE QUOTATION MARK)
0xDD    0x203A  › (SINGLE RIGHT-POINTING ANGLE QUOTATION MARK)
0xDE    0xFB01  ﬁ (LATIN SMALL LIGATURE FI)
0xDF    0xFB02  ﬂ (LATIN SMALL LIGATURE FL)
0xE0    0x2021  ‡ (DOUBLE DAGGER)
0xE1    0x00B7  · (MIDDLE DOT)
0xE2    0x201A  ‚ (SINGLE LOW-9 QUOTATION MARK)
0xE3    0x201E  „ (DOUBLE LOW-9 QUOTATION MARK)
0xE4    0x2030  ‰ (PER MILLE SIGN)
0xE5    0x00C2  Â (LATIN CAPITAL LETTER A WITH CIRCUMFLEX)
0xE6    0x00CA  Ê (LATIN CAPITAL LETTER E WITH CIRCUMFLEX)
0xE7    0x00C1  Á (LATIN CAPITAL LETTER A WITH ACUTE)
0xE8    0x00CB  Ë (LATIN CAPITAL LETTER E WITH DIAERESIS)
0xE9    0x00C8  È (LATIN CAPITAL LETTER E WITH GRAVE)
0xEA    0x00CD  Í (LATIN CAPITAL LETTER I WITH ACUTE)
0xEB    0x00CE  Î (LATIN CAPITAL LETTER I WITH CIRCUMFLEX)
0xEC    0x00CF  Ï (LATIN CAPITAL LETTER I WITH DIAERESIS)
0xED    0x00CC  Ì (LATIN CAPITAL LETTER I WITH GRAVE)
0xEE    0x00D3  Ó (LATIN CAPITAL LETTER O WITH ACUTE)
0xEF    0x00D4  Ô (LATIN CAPITAL LETTER O WITH CIRCUMFLEX)
0xF0    0xF8FF   (<Private Use>)
0xF1    0x00D2  Ò (LATIN CAPITAL LETTER O WITH GRAVE)
0xF2    0x00DA  Ú (LATIN CAPITAL LETTER U WITH ACUTE)
0xF3    0x00DB  Û (LATIN CAPITAL LETTER U WITH CIRCUMFLEX)
0xF4    0x00D9  Ù (LATIN CAPITAL LETTER U WITH GRAVE)
0xF5    0x0131  ı (LATIN SMALL LETTER DOTLESS I)
0xF6    0x02C6  ˆ (MODIFIER LETTER CIRCUMFLEX ACCENT)
0xF7    0x02DC  ˜ (SMALL TILDE)
0xF8    0x00AF  ¯ (MACRON)
0xF9    0x02D8  ˘ (BREVE)
0xFA    0x02D9  ˙ (DOT ABOVE)
0xFB    0x02DA  ˚ (RING ABOVE)
0xFC    0x00B8  ¸ (CEDILLA)
0xFD    0x02DD  ˝ (DOUBLE ACUTE ACCENT)
0xFE    0x02DB  ˛ (OGONEK)
0xFF    0x02C7  ˇ (CARON)
"#

/-- src/generated/single_byte/mac-roman_tables.rs.inc:1-72 -/
noncomputable def mac_roman_source : List Text := lines! r#"// This file is auto-generated.  Please see `encoding_tables/single_byte/`
// from the root directory for the files that generate this.

use {DecodeResult, EncodeResult};

pub fn decode_to_str<'a>(
    input: &[u8],
    out_buffer: &'a mut [u8],
) -> DecodeResult<'a> {
    super::ascii_ext_decode_to_str(&DECODE_TABLE, input, out_buffer)
}

pub fn encode_from_str<'a>(
    input: &str,
    out_buffer: &'a mut [u8],
) -> EncodeResult<'a> {
    super::ascii_ext_encode_from_str(&ENCODE_TABLE, input, out_buffer)
}

const DECODE_TABLE: [char; 128] = [
    '\u{00C4}','\u{00C5}','\u{00C7}','\u{00C9}','\u{00D1}','\u{00D6}','\u{00DC}','\u{00E1}',
    '\u{00E0}','\u{00E2}','\u{00E4}','\u{00E3}','\u{00E5}','\u{00E7}','\u{00E9}','\u{00E8}',
    '\u{00EA}','\u{00EB}','\u{00ED}','\u{00EC}','\u{00EE}','\u{00EF}','\u{00F1}','\u{00F3}',
    '\u{00F2}','\u{00F4}','\u{00F6}','\u{00F5}','\u{00FA}','\u{00F9}','\u{00FB}','\u{00FC}',
    '\u{2020}','\u{00B0}','\u{00A2}','\u{00A3}','\u{00A7}','\u{2022}','\u{00B6}','\u{00DF}',
    '\u{00AE}','\u{00A9}','\u{2122}','\u{00B4}','\u{00A8}','\u{2260}','\u{00C6}','\u{00D8}',
    '\u{221E}','\u{00B1}','\u{2264}','\u{2265}','\u{00A5}','\u{00B5}','\u{2202}','\u{2211}',
    '\u{220F}','\u{03C0}','\u{222B}','\u{00AA}','\u{00BA}','\u{03A9}','\u{00E6}','\u{00F8}',
    '\u{00BF}','\u{00A1}','\u{00AC}','\u{221A}','\u{0192}','\u{2248}','\u{2206}','\u{00AB}',
    '\u{00BB}','\u{2026}','\u{00A0}','\u{00C0}','\u{00C3}','\u{00D5}','\u{0152}','\u{0153}',
    '\u{2013}','\u{2014}','\u{201C}','\u{201D}','\u{2018}','\u{2019}','\u{00F7}','\u{25CA}',
    '\u{00FF}','\u{0178}','\u{2044}','\u{20AC}','\u{2039}','\u{203A}','\u{FB01}','\u{FB02}',
    '\u{2021}','\u{00B7}','\u{201A}','\u{201E}','\u{2030}','\u{00C2}','\u{00CA}','\u{00C1}',
    '\u{00CB}','\u{00C8}','\u{00CD}','\u{00CE}','\u{00CF}','\u{00CC}','\u{00D3}','\u{00D4}',
    '\u{F8FF}','\u{00D2}','\u{00DA}','\u{00DB}','\u{00D9}','\u{0131}','\u{02C6}','\u{02DC}',
    '\u{00AF}','\u{02D8}','\u{02D9}','\u{02DA}','\u{00B8}','\u{02DD}','\u{02DB}','\u{02C7}',
];

const ENCODE_TABLE: [(char, u8); 128] = [
    ('\u{00A0}', 0xCA), ('\u{00A1}', 0xC1), ('\u{00A2}', 0xA2), ('\u{00A3}', 0xA3), 
    ('\u{00A5}', 0xB4), ('\u{00A7}', 0xA4), ('\u{00A8}', 0xAC), ('\u{00A9}', 0xA9), 
    ('\u{00AA}', 0xBB), ('\u{00AB}', 0xC7), ('\u{00AC}', 0xC2), ('\u{00AE}', 0xA8), 
    ('\u{00AF}', 0xF8), ('\u{00B0}', 0xA1), ('\u{00B1}', 0xB1), ('\u{00B4}', 0xAB), 
    ('\u{00B5}', 0xB5), ('\u{00B6}', 0xA6), ('\u{00B7}', 0xE1), ('\u{00B8}', 0xFC), 
    ('\u{00BA}', 0xBC), ('\u{00BB}', 0xC8), ('\u{00BF}', 0xC0), ('\u{00C0}', 0xCB), 
    ('\u{00C1}', 0xE7), ('\u{00C2}', 0xE5), ('\u{00C3}', 0xCC), ('\u{00C4}', 0x80), 
    ('\u{00C5}', 0x81), ('\u{00C6}', 0xAE), ('\u{00C7}', 0x82), ('\u{00C8}', 0xE9), 
    ('\u{00C9}', 0x83), ('\u{00CA}', 0xE6), ('\u{00CB}', 0xE8), ('\u{00CC}', 0xED), 
    ('\u{00CD}', 0xEA), ('\u{00CE}', 0xEB), ('\u{00CF}', 0xEC), ('\u{00D1}', 0x84), 
    ('\u{00D2}', 0xF1), ('\u{00D3}', 0xEE), ('\u{00D4}', 0xEF), ('\u{00D5}', 0xCD), 
    ('\u{00D6}', 0x85), ('\u{00D8}', 0xAF), ('\u{00D9}', 0xF4), ('\u{00DA}', 0xF2), 
    ('\u{00DB}', 0xF3), ('\u{00DC}', 0x86), ('\u{00DF}', 0xA7), ('\u{00E0}', 0x88), 
    ('\u{00E1}', 0x87), ('\u{00E2}', 0x89), ('\u{00E3}', 0x8B), ('\u{00E4}', 0x8A), 
    ('\u{00E5}', 0x8C), ('\u{00E6}', 0xBE), ('\u{00E7}', 0x8D), ('\u{00E8}', 0x8F), 
    ('\u{00E9}', 0x8E), ('\u{00EA}', 0x90), ('\u{00EB}', 0x91), ('\u{00EC}', 0x93), 
    ('\u{00ED}', 0x92), ('\u{00EE}', 0x94), ('\u{00EF}', 0x95), ('\u{00F1}', 0x96), 
    ('\u{00F2}', 0x98), ('\u{00F3}', 0x97), ('\u{00F4}', 0x99), ('\u{00F5}', 0x9B), 
    ('\u{00F6}', 0x9A), ('\u{00F7}', 0xD6), ('\u{00F8}', 0xBF), ('\u{00F9}', 0x9D), 
    ('\u{00FA}', 0x9C), ('\u{00FB}', 0x9E), ('\u{00FC}', 0x9F), ('\u{00FF}', 0xD8), 
    ('\u{0131}', 0xF5), ('\u{0152}', 0xCE), ('\u{0153}', 0xCF), ('\u{0178}', 0xD9), 
    ('\u{0192}', 0xC4), ('\u{02C6}', 0xF6), ('\u{02C7}', 0xFF), ('\u{02D8}', 0xF9), 
    ('\u{02D9}', 0xFA), ('\u{02DA}', 0xFB), ('\u{02DB}', 0xFE), ('\u{02DC}', 0xF7), 
    ('\u{02DD}', 0xFD), ('\u{03A9}', 0xBD), ('\u{03C0}', 0xB9), ('\u{2013}', 0xD0), 
    ('\u{2014}', 0xD1), ('\u{2018}', 0xD4), ('\u{2019}', 0xD5), ('\u{201A}', 0xE2), 
    ('\u{201C}', 0xD2), ('\u{201D}', 0xD3), ('\u{201E}', 0xE3), ('\u{2020}', 0xA0), 
    ('\u{2021}', 0xE0), ('\u{2022}', 0xA5), ('\u{2026}', 0xC9), ('\u{2030}', 0xE4), 
    ('\u{2039}', 0xDC), ('\u{203A}', 0xDD), ('\u{2044}', 0xDA), ('\u{20AC}', 0xDB), 
    ('\u{2122}', 0xAA), ('\u{2202}', 0xB6), ('\u{2206}', 0xC6), ('\u{220F}', 0xB8), 
    ('\u{2211}', 0xB7), ('\u{221A}', 0xC3), ('\u{221E}', 0xB0), ('\u{222B}', 0xBA), 
    ('\u{2248}', 0xC5), ('\u{2260}', 0xAD), ('\u{2264}', 0xB2), ('\u{2265}', 0xB3), 
    ('\u{25CA}', 0xD7), ('\u{F8FF}', 0xF0), ('\u{FB01}', 0xDE), ('\u{FB02}', 0xDF), 
];
"#

/-- encoding_tables/single_byte/ascii_ext/mac-cyrillic.txt:1-260 -/
noncomputable def mac_cyrillic_mapping : List Text := lines! r#"# This table is derived from index-x-mac-cyrillic.txt from the WHATWG Encoding Standard
# https://encoding.spec.whatwg.org/

# Mac   Unicode
0x00    0x0000
0x01    0x0001
0x02    0x0002
0x03    0x0003
0x04    0x0004
0x05    0x0005
0x06    0x0006
0x07    0x0007
0x08    0x0008
0x09    0x0009
0x0A    0x000A
0x0B    0x000B
0x0C    0x000C
0x0D    0x000D
0x0E    0x000E
0x0F    0x000F
0x10    0x0010
0x11    0x0011
0x12    0x0012
0x13    0x0013
0x14    0x0014
0x15    0x0015
0x16    0x0016
0x17    0x0017
0x18    0x0018
0x19    0x0019
0x1A    0x001A
0x1B    0x001B
0x1C    0x001C
0x1D    0x001D
0x1E    0x001E
0x1F    0x001F
0x20    0x0020
0x21    0x0021
0x22    0x0022
0x23    0x0023
0x24    0x0024
0x25    0x0025
0x26    0x0026
0x27    0x0027
0x28    0x0028
0x29    0x0029
0x2A    0x002A
0x2B    0x002B
0x2C    0x002C
0x2D    0x002D
0x2E    0x002E
0x2F    0x002F
0x30    0x0030
0x31    0x0031
0x32    0x0032
0x33    0x0033
0x34    0x0034
0x35    0x0035
0x36    0x0036
0x37    0x0037
0x38    0x0038
0x39    0x0039
0x3A    0x003A
0x3B    0x003B
0x3C    0x003C
0x3D    0x003D
0x3E    0x003E
0x3F    0x003F
0x40    0x0040
0x41    0x0041
0x42    0x0042
0x43    0x0043
0x44    0x0044
0x45    0x0045
0x46    0x0046
0x47    0x0047
0x48    0x0048
0x49    0x0049
0x4A    0x004A
0x4B    0x004B
0x4C    0x004C
0x4D    0x004D
0x4E    0x004E
0x4F    0x004F
0x50    0x0050
0x51    0x0051
0x52    0x0052
0x53    0x0053
0x54    0x0054
0x55    0x0055
0x56    0x0056
0x57    0x0057
0x58    0x0058
0x59    0x0059
0x5A    0x005A
0x5B    0x005B
0x5C    0x005C
0x5D    0x005D
0x5E    0x005E
0x5F    0x005F
0x60    0x0060
0x61    0x0061
0x62    0x0062
0x63    0x0063
0x64    0x0064
0x65    0x0065
0x66    0x0066
0x67    0x0067
0x68    0x0068
0x69    0x0069
0x6A    0x006A
0x6B    0x006B
0x6C    0x006C
0x6D    0x006D
0x6E    0x006E
0x6F    0x006F
0x70    0x0070
0x71    0x0071
0x72    0x0072
0x73    0x0073
0x74    0x0074
0x75    0x0075
0x76    0x0076
0x77    0x0077
0x78    0x0078
0x79    0x0079
0x7A    0x007A
0x7B    0x007B
0x7C    0x007C
0x7D    0x007D
0x7E    0x007E
0x7F    0x007F
0x80    0x0410  А (CYRILLIC CAPITAL LETTER A)
0x81    0x0411  Б (CYRILLIC CAPITAL LETTER BE)
0x82    0x0412  В (CYRILLIC CAPITAL LETTER VE)
0x83    0x0413  Г (CYRILLIC CAPITAL LETTER GHE)
0x84    0x0414  Д (CYRILLIC CAPITAL LETTER DE)
0x85    0x0415  Е (CYRILLIC CAPITAL LETTER IE)
0x86    0x0416  Ж (CYRILLIC CAPITAL LETTER ZHE)
0x87    0x0417  З (CYRILLIC CAPITAL LETTER ZE)
0x88    0x0418  И (CYRILLIC CAPITAL LETTER I)
0x89    0x0419  Й (CYRILLIC CAPITAL LETTER SHORT I)
0x8A    0x041A  К (CYRILLIC CAPITAL LETTER KA)
0x8B    0x041B  Л (CYRILLIC CAPITAL LETTER EL)
0x8C    0x041C  М (CYRILLIC CAPITAL LETTER EM)
0x8D    0x041D  Н (CYRILLIC CAPITAL LETTER EN)
0x8E    0x041E  О (CYRILLIC CAPITAL LETTER O)
0x8F    0x041F  П (CYRILLIC CAPITAL LETTER PE)
0x90    0x0420  Р (CYRILLIC CAPITAL LETTER ER)
0x91    0x0421  С (CYRILLIC CAPITAL LETTER ES)
0x92    0x0422  Т (CYRILLIC CAPITAL LETTER TE)
0x93    0x0423  У (CYRILLIC CAPITAL LETTER U)
0x94    0x0424  Ф (CYRILLIC CAPITAL LETTER EF)
0x95    0x0425  Х (CYRILLIC CAPITAL LETTER HA)
0x96    0x0426  Ц (CYRILLIC CAPITAL LETTER TSE)
0x97    0x0427  Ч (CYRILLIC CAPITAL LETTER CHE)
0x98    0x0428  Ш (CYRILLIC CAPITAL LETTER SHA)
0x99    0x0429  Щ (CYRILLIC CAPITAL LETTER SHCHA)
0x9A    0x042A  Ъ (CYRILLIC CAPITAL LETTER HARD SIGN)
0x9B    0x042B  Ы (CYRILLIC CAPITAL LETTER YERU)
0x9C    0x042C  Ь (CYRILLIC CAPITAL LETTER SOFT SIGN)
0x9D    0x042D  Э (CYRILLIC CAPITAL LETTER E)
0x9E    0x042E  Ю (CYRILLIC CAPITAL LETTER YU)
0x9F    0x042F  Я (CYRILLIC CAPITAL LETTER YA)
0xA0    0x2020  † (DAGGER)
0xA1    0x00B0  ° (DEGREE SIGN)
0xA2    0x0490  Ґ (CYRILLIC CAPITAL LETTER GHE WITH UPTURN)
0xA3    0x00A3  £ (POUND SIGN)
0xA4    0x00A7  § (SECTION SIGN)
0xA5    0x2022  • (BULLET)
0xA6    0x00B6  ¶ (PILCROW SIGN)
0xA7    0x0406  І (CYRILLIC CAPITAL LETTER BYELORUSSIAN-UKRAINIAN I)
0xA8    0x00AE  ® (REGISTERED SIGN)
0xA9    0x00A9  © (COPYRIGHT SIGN)
0xAA    0x2122  ™ (TRADE MARK SIGN)
0xAB    0x0402  Ђ (CYRILLIC CAPITAL LETTER DJE)
0xAC    0x0452  ђ (CYRILLIC SMALL LETTER DJE)
0xAD    0x2260  ≠ (NOT EQUAL TO)
0xAE    0x0403  Ѓ (CYRILLIC CAPITAL LETTER GJE)
0xAF    0x0453  ѓ (CYRILLIC SMALL LETTER GJE)
0xB0    0x221E  ∞ (INFINITY)
0xB1    0x00B1  ± (PLUS-MINUS SIGN)
0xB2    0x2264  ≤ (LESS-THAN OR EQUAL TO)
0xB3    0x2265  ≥ (GREATER-THAN OR EQUAL TO)
0xB4    0x0456  і (CYRILLIC SMALL LETTER BYELORUSSIAN-UKRAINIAN I)
0xB5    0x00B5  µ (MICRO SIGN)
0xB6    0x0491  ґ (CYRILLIC SMALL LETTER GHE WITH UPTURN)
0xB7    0x0408  Ј (CYRILLIC CAPITAL LETTER JE)
0xB8    0x0404  Є (CYRILLIC CAPITAL LETTER UKRAINIAN IE)
0xB9    0x0454  є (CYRILLIC SMALL LETTER UKRAINIAN IE)
0xBA    0x0407  Ї (CYRILLIC CAPITAL LETTER YI)
0xBB    0x0457  ї (CYRILLIC SMALL LETTER YI)
0xBC    0x0409  Љ (CYRILLIC CAPITAL LETTER LJE)
0xBD    0x0459  љ (CYRILLIC SMALL LETTER LJE)
0xBE    0x040A  Њ (CYRILLIC CAPITAL LETTER NJE)
0xBF    0x045A  њ (CYRILLIC SMALL LETTER NJE)
0xC0    0x0458  ј (CYRILLIC SMALL LETTER JE)
0xC1    0x0405  Ѕ (CYRILLIC CAPITAL LETTER DZE)
0xC2    0x00AC  ¬ (NOT SIGN)
0xC3    0x221A  √ (SQUARE ROOT)
0xC4    0x0192  ƒ (LATIN SMALL LETTER F WITH HOOK)
0xC5    0x2248  ≈ (ALMOST EQUAL TO)
0xC6    0x2206  ∆ (INCREMENT)
0xC7    0x00AB  « (LEFT-POINTING DOUBLE ANGLE QUOTATION MARK)
0xC8    0x00BB  » (RIGHT-POINTING DOUBLE ANGLE QUOTATION MARK)
0xC9    0x2026  … (HORIZONTAL ELLIPSIS)
0xCA    0x00A0    (NO-BREAK SPACE)
0xCB    0x040B  Ћ (CYRILLIC CAPITAL LETTER TSHE)
0xCC    0x045B  ћ (CYRILLIC SMALL LETTER TSHE)
0xCD    0x040C  Ќ (CYRILLIC CAPITAL LETTER KJE)
0xCE    0x045C  ќ (CYRILLIC SMALL LETTER KJE)
0xCF    0x0455  ѕ (CYRILLIC SMALL LETTER DZE)
0xD0    0x2013  – (EN DASH)
0xD1    0x2014  — (EM DASH)
0xD2    0x201C  “ (LEFT DOUBLE QUOTATION MARK)
0xD3    0x201D  ” (RIGHT DOUBLE QUOTATION MARK)
0xD4    0x2018  ‘ (LEFT SINGLE QUOTATION MARK)
0xD5    0x2019  ’ (RIGHT SINGLE QUOTATION MARK)
0xD6    0x00F7  ÷ (DIVISION SIGN)
0xD7    0x201E  „ (DOUBLE LOW-9 QUOTATION MARK)
0xD8    0x040E  Ў (CYRILLIC CAPITAL LETTER SHORT U)
0xD9    0x045E  ў (CYRILLIC SMALL LETTER SHORT U)
0xDA    0x040F  Џ (CYRILLIC CAPITAL LETTER DZHE)
0xDB    0x045F  џ (CYRILLIC SMALL LETTER DZHE)
0xDC    0x2116  № (NUMERO SIGN)
0xDD    0x0401  Ё (CYRILLIC CAPITAL LETTER IO)
0xDE    0x0451  ё (CYRILLIC SMALL LETTER IO)
0xDF    0x044F  я (CYRILLIC SMALL LETTER YA)
0xE0    0x0430  а (CYRILLIC SMALL LETTER A)
0xE1    0x0431  б (CYRILLIC SMALL LETTER BE)
0xE2    0x0432  в (CYRILLIC SMALL LETTER VE)
0xE3    0x0433  г (CYRILLIC SMALL LETTER GHE)
0xE4    0x0434  д (CYRILLIC SMALL LETTER DE)
0xE5    0x0435  е (CYRILLIC SMALL LETTER IE)
0xE6    0x0436  ж (CYRILLIC SMALL LETTER ZHE)
0xE7    0x0437  з (CYRILLIC SMALL LETTER ZE)
0xE8    0x0438  и (CYRILLIC SMALL LETTER I)
0xE9    0x0439  й (CYRILLIC SMALL LETTER SHORT I)
0xEA    0x043A  к (CYRILLIC SMALL LETTER KA)
0xEB    0x043B  л (CYRILLIC SMALL LETTER EL)
0xEC    0x043C  м (CYRILLIC SMALL LETTER EM)
0xED    0x043D  н (CYRILLIC SMALL LETTER EN)
0xEE    0x043E  о (CYRILLIC SMALL LETTER O)
0xEF    0x043F  п (CYRILLIC SMALL LETTER PE)
0xF0    0x0440  р (CYRILLIC SMALL LETTER ER)
0xF1    0x0441  с (CYRILLIC SMALL LETTER ES)
0xF2    0x0442  т (CYRILLIC SMALL LETTER TE)
0xF3    0x0443  у (CYRILLIC SMALL LETTER U)
0xF4    0x0444  ф (CYRILLIC SMALL LETTER EF)
0xF5    0x0445  х (CYRILLIC SMALL LETTER HA)
0xF6    0x0446  ц (CYRILLIC SMALL LETTER TSE)
0xF7    0x0447  ч (CYRILLIC SMALL LETTER CHE)
0xF8    0x0448  ш (CYRILLIC SMALL LETTER SHA)
0xF9    0x0449  щ (CYRILLIC SMALL LETTER SHCHA)
0xFA    0x044A  ъ (CYRILLIC SMALL LETTER HARD SIGN)
0xFB    0x044B  ы (CYRILLIC SMALL LETTER YERU)
0xFC    0x044C  ь (CYRILLIC SMALL LETTER SOFT SIGN)
0xFD    0x044D  э (CYRILLIC SMALL LETTER E)
0xFE    0x044E  ю (CYRILLIC SMALL LETTER YU)
0xFF    0x20AC  € (EURO SIGN)
"#

/-- src/generated/single_byte/mac-cyrillic_tables.rs.inc:1-72 -/
noncomputable def mac_cyrillic_source : List Text := lines! r#"// This file is auto-generated.  Please see `encoding_tables/single_byte/`
// from the root directory for the files that generate this.

use {DecodeResult, EncodeResult};

pub fn decode_to_str<'a>(
    input: &[u8],
    out_buffer: &'a mut [u8],
) -> DecodeResult<'a> {
    super::ascii_ext_decode_to_str(&DECODE_TABLE, input, out_buffer)
}

pub fn encode_from_str<'a>(
    input: &str,
    out_buffer: &'a mut [u8],
) -> EncodeResult<'a> {
    super::ascii_ext_encode_from_str(&ENCODE_TABLE, input, out_buffer)
}

const DECODE_TABLE: [char; 128] = [
    '\u{0410}','\u{0411}','\u{0412}','\u{0413}','\u{0414}','\u{0415}','\u{0416}','\u{0417}',
    '\u{0418}','\u{0419}','\u{041A}','\u{041B}','\u{041C}','\u{041D}','\u{041E}','\u{041F}',
    '\u{0420}','\u{0421}','\u{0422}','\u{0423}','\u{0424}','\u{0425}','\u{0426}','\u{0427}',
    '\u{0428}','\u{0429}','\u{042A}','\u{042B}','\u{042C}','\u{042D}','\u{042E}','\u{042F}',
    '\u{2020}','\u{00B0}','\u{0490}','\u{00A3}','\u{00A7}','\u{2022}','\u{00B6}','\u{0406}',
    '\u{00AE}','\u{00A9}','\u{2122}','\u{0402}','\u{0452}','\u{2260}','\u{0403}','\u{0453}',
    '\u{221E}','\u{00B1}','\u{2264}','\u{2265}','\u{0456}','\u{00B5}','\u{0491}','\u{0408}',
    '\u{0404}','\u{0454}','\u{0407}','\u{0457}','\u{0409}','\u{0459}','\u{040A}','\u{045A}',
    '\u{0458}','\u{0405}','\u{00AC}','\u{221A}','\u{0192}','\u{2248}','\u{2206}','\u{00AB}',
    '\u{00BB}','\u{2026}','\u{00A0}','\u{040B}','\u{045B}','\u{040C}','\u{045C}','\u{0455}',
    '\u{2013}','\u{2014}','\u{201C}','\u{201D}','\u{2018}','\u{2019}','\u{00F7}','\u{201E}',
    '\u{040E}','\u{045E}','\u{040F}','\u{045F}','\u{2116}','\u{0401}','\u{0451}','\u{044F}',
    '\u{0430}','\u{0431}','\u{0432}','\u{0433}','\u{0434}','\u{0435}','\u{0436}','\u{0437}',
    '\u{0438}','\u{0439}','\u{043A}','\u{043B}','\u{043C}','\u{043D}','\u{043E}','\u{043F}',
    '\u{0440}','\u{0441}','\u{0442}','\u{0443}','\u{0444}','\u{0445}','\u{0446}','\u{0447}',
    '\u{0448}','\u{0449}','\u{044A}','\u{044B}','\u{044C}','\u{044D}','\u{044E}','\u{20AC}',
];

const ENCODE_TABLE: [(char, u8); 128] = [
    ('\u{00A0}', 0xCA), ('\u{00A3}', 0xA3), ('\u{00A7}', 0xA4), ('\u{00A9}', 0xA9), 
    ('\u{00AB}', 0xC7), ('\u{00AC}', 0xC2), ('\u{00AE}', 0xA8), ('\u{00B0}', 0xA1), 
    ('\u{00B1}', 0xB1), ('\u{00B5}', 0xB5), ('\u{00B6}', 0xA6), ('\u{00BB}', 0xC8), 
    ('\u{00F7}', 0xD6), ('\u{0192}', 0xC4), ('\u{0401}', 0xDD), ('\u{0402}', 0xAB), 
    ('\u{0403}', 0xAE), ('\u{0404}', 0xB8), ('\u{0405}', 0xC1), ('\u{0406}', 0xA7), 
    ('\u{0407}', 0xBA), ('\u{0408}', 0xB7), ('\u{0409}', 0xBC), ('\u{040A}', 0xBE), 
    ('\u{040B}', 0xCB), ('\u{040C}', 0xCD), ('\u{040E}', 0xD8), ('\u{040F}', 0xDA), 
    ('\u{0410}', 0x80), ('\u{0411}', 0x81), ('\u{0412}', 0x82), ('\u{0413}', 0x83), 
    ('\u{0414}', 0x84), ('\u{0415}', 0x85), ('\u{0416}', 0x86), ('\u{0417}', 0x87), 
    ('\u{0418}', 0x88), ('\u{0419}', 0x89), ('\u{041A}', 0x8A), ('\u{041B}', 0x8B), 
    ('\u{041C}', 0x8C), ('\u{041D}', 0x8D), ('\u{041E}', 0x8E), ('\u{041F}', 0x8F), 
    ('\u{0420}', 0x90), ('\u{0421}', 0x91), ('\u{0422}', 0x92), ('\u{0423}', 0x93), 
    ('\u{0424}', 0x94), ('\u{0425}', 0x95), ('\u{0426}', 0x96), ('\u{0427}', 0x97), 
    ('\u{0428}', 0x98), ('\u{0429}', 0x99), ('\u{042A}', 0x9A), ('\u{042B}', 0x9B), 
    ('\u{042C}', 0x9C), ('\u{042D}', 0x9D), ('\u{042E}', 0x9E), ('\u{042F}', 0x9F), 
    ('\u{0430}', 0xE0), ('\u{0431}', 0xE1), ('\u{0432}', 0xE2), ('\u{0433}', 0xE3), 
    ('\u{0434}', 0xE4), ('\u{0435}', 0xE5), ('\u{0436}', 0xE6), ('\u{0437}', 0xE7), 
    ('\u{0438}', 0xE8), ('\u{0439}', 0xE9), ('\u{043A}', 0xEA), ('\u{043B}', 0xEB), 
    ('\u{043C}', 0xEC), ('\u{043D}', 0xED), ('\u{043E}', 0xEE), ('\u{043F}', 0xEF), 
    ('\u{0440}', 0xF0), ('\u{0441}', 0xF1), ('\u{0442}', 0xF2), ('\u{0443}', 0xF3), 
    ('\u{0444}', 0xF4), ('\u{0445}', 0xF5), ('\u{0446}', 0xF6), ('\u{0447}', 0xF7), 
    ('\u{0448}', 0xF8), ('\u{0449}', 0xF9), ('\u{044A}', 0xFA), ('\u{044B}', 0xFB), 
    ('\u{044C}', 0xFC), ('\u{044D}', 0xFD), ('\u{044E}', 0xFE), ('\u{044F}', 0xDF), 
    ('\u{0451}', 0xDE), ('\u{0452}', 0xAC), ('\u{0453}', 0xAF), ('\u{0454}', 0xB9), 
    ('\u{0455}', 0xCF), ('\u{0456}', 0xB4), ('\u{0457}', 0xBB), ('\u{0458}', 0xC0), 
    ('\u{0459}', 0xBD), ('\u{045A}', 0xBF), ('\u{045B}', 0xCC), ('\u{045C}', 0xCE), 
    ('\u{045E}', 0xD9), ('\u{045F}', 0xDB), ('\u{0490}', 0xA2), ('\u{0491}', 0xB6), 
    ('\u{2013}', 0xD0), ('\u{2014}', 0xD1), ('\u{2018}', 0xD4), ('\u{2019}', 0xD5), 
    ('\u{201C}', 0xD2), ('\u{201D}', 0xD3), ('\u{201E}', 0xD7), ('\u{2020}', 0xA0), 
    ('\u{2022}', 0xA5), ('\u{2026}', 0xC9), ('\u{20AC}', 0xFF), ('\u{2116}', 0xDC), 
    ('\u{2122}', 0xAA), ('\u{2206}', 0xC6), ('\u{221A}', 0xC3), ('\u{221E}', 0xB0), 
    ('\u{2248}', 0xC5), ('\u{2260}', 0xAD), ('\u{2264}', 0xB2), ('\u{2265}', 0xB3), 
];
"#

end Verif.Files
