import Verif.Text

/-! Generated by tools/gen_files.py: verbatim copies of files of /repo. -/

namespace Verif.Files

/-- encoding_tables/single_byte/ascii_ext/ibm-cp866.txt:1-260 -/
noncomputable def ibm_866_mapping : List Text := lines! r#"# This table is derived from index-ibm866.txt from the WHATWG Encoding Standard
# https://encoding.spec.whatwg.org/

# IBM   Unicode
0x00    0x0000
0x01    0x0001
0x02    0x0002
0x03    0x0003
0x04    0x0004
0x05    0x0005
0x06    0x0006
0x07    0x0007
0x08    0x0008
0x09    0x0009
0x0A    0x000A
0x0B    0x000B
0x0C    0x000C
0x0D    0x000D
0x0E    0x000E
0x0F    0x000F
0x10    0x0010
0x11    0x0011
0x12    0x0012
0x13    0x0013
0x14    0x0014
0x15    0x0015
0x16    0x0016
0x17    0x0017
0x18    0x0018
0x19    0x0019
0x1A    0x001A
0x1B    0x001B
0x1C    0x001C
0x1D    0x001D
0x1E    0x001E
0x1F    0x001F
0x20    0x0020
0x21    0x0021
0x22    0x0022
0x23    0x0023
0x24    0x0024
0x25    0x0025
0x26    0x0026
0x27    0x0027
0x28    0x0028
0x29    0x0029
0x2A    0x002A
0x2B    0x002B
0x2C    0x002C
0x2D    0x002D
0x2E    0x002E
0x2F    0x002F
0x30    0x0030
0x31    0x0031
0x32    0x0032
0x33    0x0033
0x34    0x0034
0x35    0x0035
0x36    0x0036
0x37    0x0037
0x38    0x0038
0x39    0x0039
0x3A    0x003A
0x3B    0x003B
0x3C    0x003C
0x3D    0x003D
0x3E    0x003E
0x3F    0x003F
0x40    0x0040
0x41    0x0041
0x42    0x0042
0x43    0x0043
0x44    0x0044
0x45    0x0045
0x46    0x0046
0x47    0x0047
0x48    0x0048
0x49    0x0049
0x4A    0x004A
0x4B    0x004B
0x4C    0x004C
0x4D    0x004D
0x4E    0x004E
0x4F    0x004F
0x50    0x0050
0x51    0x0051
0x52    0x0052
0x53    0x0053
0x54    0x0054
0x55    0x0055
0x56    0x0056
0x57    0x0057
0x58    0x0058
0x59    0x0059
0x5A    0x005A
0x5B    0x005B
0x5C    0x005C
0x5D    0x005D
0x5E    0x005E
0x5F    0x005F
0x60    0x0060
0x61    0x0061
0x62    0x0062
0x63    0x0063
0x64    0x0064
0x65    0x0065
0x66    0x0066
0x67    0x0067
0x68    0x0068
0x69    0x0069
0x6A    0x006A
0x6B    0x006B
0x6C    0x006C
0x6D    0x006D
0x6E    0x006E
0x6F    0x006F
0x70    0x0070
0x71    0x0071
0x72    0x0072
0x73    0x0073
0x74    0x0074
0x75    0x0075
0x76    0x0076
0x77    0x0077
0x78    0x0078
0x79    0x0079
0x7A    0x007A
0x7B    0x007B
0x7C    0x007C
0x7D    0x007D
0x7E    0x007E
0x7F    0x007F
0x80    0x0410	А (CYRILLIC CAPITAL LETTER A)
0x81    0x0411	Б (CYRILLIC CAPITAL LETTER BE)
0x82    0x0412	В (CYRILLIC CAPITAL LETTER VE)
0x83    0x0413	Г (CYRILLIC CAPITAL LETTER GHE)
0x84    0x0414	Д (CYRILLIC CAPITAL LETTER DE)
0x85    0x0415	Е (CYRILLIC CAPITAL LETTER IE)
0x86    0x0416	Ж (CYRILLIC CAPITAL LETTER ZHE)
0x87    0x0417	З (CYRILLIC CAPITAL LETTER ZE)
0x88    0x0418	И (CYRILLIC CAPITAL LETTER I)
0x89    0x0419	Й (CYRILLIC CAPITAL LETTER SHORT I)
0x8A    0x041A	К (CYRILLIC CAPITAL LETTER KA)
0x8B    0x041B	Л (CYRILLIC CAPITAL LETTER EL)
0x8C    0x041C	М (CYRILLIC CAPITAL LETTER EM)
0x8D    0x041D	Н (CYRILLIC CAPITAL LETTER EN)
0x8E    0x041E	О (CYRILLIC CAPITAL LETTER O)
0x8F    0x041F	П (CYRILLIC CAPITAL LETTER PE)
0x90    0x0420	Р (CYRILLIC CAPITAL LETTER ER)
0x91    0x0421	С (CYRILLIC CAPITAL LETTER ES)
0x92    0x0422	Т (CYRILLIC CAPITAL LETTER TE)
0x93    0x0423	У (CYRILLIC CAPITAL LETTER U)
0x94    0x0424	Ф (CYRILLIC CAPITAL LETTER EF)
0x95    0x0425	Х (CYRILLIC CAPITAL LETTER HA)
0x96    0x0426	Ц (CYRILLIC CAPITAL LETTER TSE)
0x97    0x0427	Ч (CYRILLIC CAPITAL LETTER CHE)
0x98    0x0428	Ш (CYRILLIC CAPITAL LETTER SHA)
0x99    0x0429	Щ (CYRILLIC CAPITAL LETTER SHCHA)
0x9A    0x042A	Ъ (CYRILLIC CAPITAL LETTER HARD SIGN)
0x9B    0x042B	Ы (CYRILLIC CAPITAL LETTER YERU)
0x9C    0x042C	Ь (CYRILLIC CAPITAL LETTER SOFT SIGN)
0x9D    0x042D	Э (CYRILLIC CAPITAL LETTER E)
0x9E    0x042E	Ю (CYRILLIC CAPITAL LETTER YU)
0x9F    0x042F	Я (CYRILLIC CAPITAL LETTER YA)
0xA0    0x0430	а (CYRILLIC SMALL LETTER A)
0xA1    0x0431	б (CYRILLIC SMALL LETTER BE)
0xA2    0x0432	в (CYRILLIC SMALL LETTER VE)
0xA3    0x0433	г (CYRILLIC SMALL LETTER GHE)
0xA4    0x0434	д (CYRILLIC SMALL LETTER DE)
0xA5    0x0435	е (CYRILLIC SMALL LETTER IE)
0xA6    0x0436	ж (CYRILLIC SMALL LETTER ZHE)
0xA7    0x0437	з (CYRILLIC SMALL LETTER ZE)
0xA8    0x0438	и (CYRILLIC SMALL LETTER I)
0xA9    0x0439	й (CYRILLIC SMALL LETTER SHORT I)
0xAA    0x043A	к (CYRILLIC SMALL LETTER KA)
0xAB    0x043B	л (CYRILLIC SMALL LETTER EL)
0xAC    0x043C	м (CYRILLIC SMALL LETTER EM)
0xAD    0x043D	н (CYRILLIC SMALL LETTER EN)
0xAE    0x043E	о (CYRILLIC SMALL LETTER O)
0xAF    0x043F	п (CYRILLIC SMALL LETTER PE)
0xB0    0x2591	░ (LIGHT SHADE)
0xB1    0x2592	▒ (MEDIUM SHADE)
0xB2    0x2593	▓ (DARK SHADE)
0xB3    0x2502	│ (BOX DRAWINGS LIGHT VERTICAL)
0xB4    0x2524	┤ (BOX DRAWINGS LIGHT VERTICAL AND LEFT)
0xB5    0x2561	╡ (BOX DRAWINGS VERTICAL SINGLE AND LEFT DOUBLE)
0xB6    0x2562	╢ (BOX DRAWINGS VERTICAL DOUBLE AND LEFT SINGLE)
0xB7    0x2556	╖ (BOX DRAWINGS DOWN DOUBLE AND LEFT SINGLE)
0xB8    0x2555	╕ (BOX DRAWINGS DOWN SINGLE AND LEFT DOUBLE)
0xB9    0x2563	╣ (BOX DRAWINGS DOUBLE VERTICAL AND LEFT)
0xBA    0x2551	║ (BOX DRAWINGS DOUBLE VERTICAL)
0xBB    0x2557	╗ (BOX DRAWINGS DOUBLE DOWN AND LEFT)
0xBC    0x255D	╝ (BOX DRAWINGS DOUBLE UP AND LEFT)
0xBD    0x255C	╜ (BOX DRAWINGS UP DOUBLE AND LEFT SINGLE)
0xBE    0x255B	╛ (BOX DRAWINGS UP SINGLE AND LEFT DOUBLE)
0xBF    0x2510	┐ (BOX DRAWINGS LIGHT DOWN AND LEFT)
0xC0    0x2514	└ (BOX DRAWINGS LIGHT UP AND RIGHT)
0xC1    0x2534	┴ (BOX DRAWINGS LIGHT UP AND HORIZONTAL)
0xC2    0x252C	┬ (BOX DRAWINGS LIGHT DOWN AND HORIZONTAL)
0xC3    0x251C	├ (BOX DRAWINGS LIGHT VERTICAL AND RIGHT)
0xC4    0x2500	─ (BOX DRAWINGS LIGHT HORIZONTAL)
0xC5    0x253C	┼ (BOX DRAWINGS LIGHT VERTICAL AND HORIZONTAL)
0xC6    0x255E	╞ (BOX DRAWINGS VERTICAL SINGLE AND RIGHT DOUBLE)
0xC7    0x255F	╟ (BOX DRAWINGS VERTICAL DOUBLE AND RIGHT SINGLE)
0xC8    0x255A	╚ (BOX DRAWINGS DOUBLE UP AND RIGHT)
0xC9    0x2554	╔ (BOX DRAWINGS DOUBLE DOWN AND RIGHT)
0xCA    0x2569	╩ (BOX DRAWINGS DOUBLE UP AND HORIZONTAL)
0xCB    0x2566	╦ (BOX DRAWINGS DOUBLE DOWN AND HORIZONTAL)
0xCC    0x2560	╠ (BOX DRAWINGS DOUBLE VERTICAL AND RIGHT)
0xCD    0x2550	═ (BOX DRAWINGS DOUBLE HORIZONTAL)
0xCE    0x256C	╬ (BOX DRAWINGS DOUBLE VERTICAL AND HORIZONTAL)
0xCF    0x2567	╧ (BOX DRAWINGS UP SINGLE AND HORIZONTAL DOUBLE)
0xD0    0x2568	╨ (BOX DRAWINGS UP DOUBLE AND HORIZONTAL SINGLE)
0xD1    0x2564	╤ (BOX DRAWINGS DOWN SINGLE AND HORIZONTAL DOUBLE)
0xD2    0x2565	╥ (BOX DRAWINGS DOWN DOUBLE AND HORIZONTAL SINGLE)
0xD3    0x2559	╙ (BOX DRAWINGS UP DOUBLE AND RIGHT SINGLE)
0xD4    0x2558	╘ (BOX DRAWINGS UP SINGLE AND RIGHT DOUBLE)
0xD5    0x2552	╒ (BOX DRAWINGS DOWN SINGLE AND RIGHT DOUBLE)
0xD6    0x2553	╓ (BOX DRAWINGS DOWN DOUBLE AND RIGHT SINGLE)
0xD7    0x256B	╫ (BOX DRAWINGS VERTICAL DOUBLE AND HORIZONTAL SINGLE)
0xD8    0x256A	╪ (BOX DRAWINGS VERTICAL SINGLE AND HORIZONTAL DOUBLE)
0xD9    0x2518	┘ (BOX DRAWINGS LIGHT UP AND LEFT)
0xDA    0x250C	┌ (BOX DRAWINGS LIGHT DOWN AND RIGHT)
0xDB    0x2588	█ (FULL BLOCK)
0xDC    0x2584	▄ (LOWER HALF BLOCK)
0xDD    0x258C	▌ (LEFT HALF BLOCK)
0xDE    0x2590	▐ (RIGHT HALF BLOCK)
0xDF    0x2580	▀ (UPPER HALF BLOCK)
0xE0    0x0440	р (CYRILLIC SMALL LETTER ER)
0xE1    0x0441	с (CYRILLIC SMALL LETTER ES)
0xE2    0x0442	т (CYRILLIC SMALL LETTER TE)
0xE3    0x0443	у (CYRILLIC SMALL LETTER U)
0xE4    0x0444	ф (CYRILLIC SMALL LETTER EF)
0xE5    0x0445	х (CYRILLIC SMALL LETTER HA)
0xE6    0x0446	ц (CYRILLIC SMALL LETTER TSE)
0xE7    0x0447	ч (CYRILLIC SMALL LETTER CHE)
0xE8    0x0448	ш (CYRILLIC SMALL LETTER SHA)
0xE9    0x0449	щ (CYRILLIC SMALL LETTER SHCHA)
0xEA    0x044A	ъ (CYRILLIC SMALL LETTER HARD SIGN)
0xEB    0x044B	ы (CYRILLIC SMALL LETTER YERU)
0xEC    0x044C	ь (CYRILLIC SMALL LETTER SOFT SIGN)
0xED    0x044D	э (CYRILLIC SMALL LETTER E)
0xEE    0x044E	ю (CYRILLIC SMALL LETTER YU)
0xEF    0x044F	я (CYRILLIC SMALL LETTER YA)
0xF0    0x0401	Ё (CYRILLIC CAPITAL LETTER IO)
0xF1    0x0451	ё (CYRILLIC SMALL LETTER IO)
0xF2    0x0404	Є (CYRILLIC CAPITAL LETTER UKRAINIAN IE)
0xF3    0x0454	є (CYRILLIC SMALL LETTER UKRAINIAN IE)
0xF4    0x0407	Ї (CYRILLIC CAPITAL LETTER YI)
0xF5    0x0457	ї (CYRILLIC SMALL LETTER YI)
0xF6    0x040E	Ў (CYRILLIC CAPITAL LETTER SHORT U)
0xF7    0x045E	ў (CYRILLIC SMALL LETTER SHORT U)
0xF8    0x00B0	° (DEGREE SIGN)
0xF9    0x2219	∙ (BULLET OPERATOR)
0xFA    0x00B7	· (MIDDLE DOT)
0xFB    0x221A	√ (SQUARE ROOT)
0xFC    0x2116	№ (NUMERO SIGN)
0xFD    0x00A4	¤ (CURRENCY SIGN)
0xFE    0x25A0	■ (BLACK SQUARE)
0xFF    0x00A0	  (NO-BREAK SPACE)
"#

/-- src/generated/single_byte/ibm-cp866_tables.rs.inc:1-72 -/
noncomputable def ibm_866_source : List Text := lines! r#"// This file is auto-generated.  Please see `encoding_tables/single_byte/`
// from the root directory for the files that generate this.

use {DecodeResult, EncodeResult};

pub fn decode_to_str<'a>(
    input: &[u8],
    out_buffer: &'a mut [u8],
) -> DecodeResult<'a> {
    super::ascii_ext_decode_to_str(&DECODE_TABLE, input, out_buffer)
}

pub fn encode_from_str<'a>(
    input: &str,
    out_buffer: &'a mut [u8],
) -> EncodeResult<'a> {
    super::ascii_ext_encode_from_str(&ENCODE_TABLE, input, out_buffer)
}

const DECODE_TABLE: [char; 128] = [
    '\u{0410}','\u{0411}','\u{0412}','\u{0413}','\u{0414}','\u{0415}','\u{0416}','\u{0417}',
    '\u{0418}','\u{0419}','\u{041A}','\u{041B}','\u{041C}','\u{041D}','\u{041E}','\u{041F}',
    '\u{0420}','\u{0421}','\u{0422}','\u{0423}','\u{0424}','\u{0425}','\u{0426}','\u{0427}',
    '\u{0428}','\u{0429}','\u{042A}','\u{042B}','\u{042C}','\u{042D}','\u{042E}','\u{042F}',
    '\u{0430}','\u{0431}','\u{0432}','\u{0433}','\u{0434}','\u{0435}','\u{0436}','\u{0437}',
    '\u{0438}','\u{0439}','\u{043A}','\u{043B}','\u{043C}','\u{043D}','\u{043E}','\u{043F}',
    '\u{2591}','\u{2592}','\u{2593}','\u{2502}','\u{2524}','\u{2561}','\u{2562}','\u{2556}',
    '\u{2555}','\u{2563}','\u{2551}','\u{2557}','\u{255D}','\u{255C}','\u{255B}','\u{2510}',
    '\u{2514}','\u{2534}','\u{252C}','\u{251C}','\u{2500}','\u{253C}','\u{255E}','\u{255F}',
    '\u{255A}','\u{2554}','\u{2569}','\u{2566}','\u{2560}','\u{2550}','\u{256C}','\u{2567}',
    '\u{2568}','\u{2564}','\u{2565}','\u{2559}','\u{2558}','\u{2552}','\u{2553}','\u{256B}',
    '\u{256A}','\u{2518}','\u{250C}','\u{2588}','\u{2584}','\u{258C}','\u{2590}','\u{2580}',
    '\u{0440}','\u{0441}','\u{0442}','\u{0443}','\u{0444}','\u{0445}','\u{0446}','\u{0447}',
    '\u{0448}','\u{0449}','\u{044A}','\u{044B}','\u{044C}','\u{044D}','\u{044E}','\u{044F}',
    '\u{0401}','\u{0451}','\u{0404}','\u{0454}','\u{0407}','\u{0457}','\u{040E}','\u{045E}',
    '\u{00B0}','\u{2219}','\u{00B7}','\u{221A}','\u{2116}','\u{00A4}','\u{25A0}','\u{00A0}',
];

const ENCODE_TABLE: [(char, u8); 128] = [
    ('\u{00A0}', 0xFF), ('\u{00A4}', 0xFD), ('\u{00B0}', 0xF8), ('\u{00B7}', 0xFA), 
    ('\u{0401}', 0xF0), ('\u{0404}', 0xF2), ('\u{0407}', 0xF4), ('\u{040E}', 0xF6), 
    ('\u{0410}', 0x80), ('\u{0411}', 0x81), ('\u{0412}', 0x82), ('\u{0413}', 0x83), 
    ('\u{0414}', 0x84), ('\u{0415}', 0x85), ('\u{0416}', 0x86), ('\u{0417}', 0x87), 
    ('\u{0418}', 0x88), ('\u{0419}', 0x89), ('\u{041A}', 0x8A), ('\u{041B}', 0x8B), 
    ('\u{041C}', 0x8C), ('\u{041D}', 0x8D), ('\u{041E}', 0x8E), ('\u{041F}', 0x8F), 
    ('\u{0420}', 0x90), ('\u{0421}', 0x91), ('\u{0422}', 0x92), ('\u{0423}', 0x93), 
    ('\u{0424}', 0x94), ('\u{0425}', 0x95), ('\u{0426}', 0x96), ('\u{0427}', 0x97), 
    ('\u{0428}', 0x98), ('\u{0429}', 0x99), ('\u{042A}', 0x9A), ('\u{042B}', 0x9B), 
    ('\u{042C}', 0x9C), ('\u{042D}', 0x9D), ('\u{042E}', 0x9E), ('\u{042F}', 0x9F), 
    ('\u{0430}', 0xA0), ('\u{0431}', 0xA1), ('\u{0432}', 0xA2), ('\u{0433}', 0xA3), 
    ('\u{0434}', 0xA4), ('\u{0435}', 0xA5), ('\u{0436}', 0xA6), ('\u{0437}', 0xA7), 
    ('\u{0438}', 0xA8), ('\u{0439}', 0xA9), ('\u{043A}', 0xAA), ('\u{043B}', 0xAB), 
    ('\u{043C}', 0xAC), ('\u{043D}', 0xAD), ('\u{043E}', 0xAE), ('\u{043F}', 0xAF), 
    ('\u{0440}', 0xE0), ('\u{0441}', 0xE1), ('\u{0442}', 0xE2), ('\u{0443}', 0xE3), 
    ('\u{0444}', 0xE4), ('\u{0445}', 0xE5), ('\u{0446}', 0xE6), ('\u{0447}', 0xE7), 
    ('\u{0448}', 0xE8), ('\u{0449}', 0xE9), ('\u{044A}', 0xEA), ('\u{044B}', 0xEB), 
    ('\u{044C}', 0xEC), ('\u{044D}', 0xED), ('\u{044E}', 0xEE), ('\u{044F}', 0xEF), 
    ('\u{0451}', 0xF1), ('\u{0454}', 0xF3), ('\u{0457}', 0xF5), ('\u{045E}', 0xF7), 
    ('\u{2116}', 0xFC), ('\u{2219}', 0xF9), ('\u{221A}', 0xFB), ('\u{2500}', 0xC4), 
    ('\u{2502}', 0xB3), ('\u{250C}', 0xDA), ('\u{2510}', 0xBF), ('\u{2514}', 0xC0), 
    ('\u{2518}', 0xD9), ('\u{251C}', 0xC3), ('\u{2524}', 0xB4), ('\u{252C}', 0xC2), 
    ('\u{2534}', 0xC1), ('\u{253C}', 0xC5), ('\u{2550}', 0xCD), ('\u{2551}', 0xBA), 
    ('\u{2552}', 0xD5), ('\u{2553}', 0xD6), ('\u{2554}', 0xC9), ('\u{2555}', 0xB8), 
    ('\u{2556}', 0xB7), ('\u{2557}', 0xBB), ('\u{2558}', 0xD4), ('\u{2559}', 0xD3), 
    ('\u{255A}', 0xC8), ('\u{255B}', 0xBE), ('\u{255C}', 0xBD), ('\u{255D}', 0xBC), 
    ('\u{255E}', 0xC6), ('\u{255F}', 0xC7), ('\u{2560}', 0xCC), ('\u{2561}', 0xB5), 
    ('\u{2562}', 0xB6), ('\u{2563}', 0xB9), ('\u{2564}', 0xD1), ('\u{2565}', 0xD2), 
    ('\u{2566}', 0xCB), ('\u{2567}', 0xCF), ('\u{2568}', 0xD0), ('\u{2569}', 0xCA), 
    ('\u{256A}', 0xD8), ('\u{256B}', 0xD7), ('\u{256C}', 0xCE), ('\u{2580}', 0xDF), 
    ('\u{2584}', 0xDC), ('\u{2588}', 0xDB), ('\u{258C}', 0xDD), ('\u{2590}', 0xDE), 
    ('\u{2591}', 0xB0), ('\u{2592}', 0xB1), ('\u{2593}', 0xB2), ('\u{25A0}', 0xFE), 
];
"#

/-- encoding_tables/single_byte/ascii_ext/iso-8859-1.txt:1-292 -/
noncomputable def iso_8859_1_mapping : List Text := lines! r#"# 8859-1.TXT
# Date: 2015-12-02 20:19:00 GMT [KW]
# © 2015 Unicode®, Inc.
# For terms of use, see http://www.unicode.org/terms_of_use.html
#
#	Name:             ISO/IEC 8859-1:1998 to Unicode
#	Unicode version:  3.0
#	Table version:    2.0
#	Table format:     Format A
#	Date:             1999 July 27 (header updated: 2015 December 02)
#	Authors:          Ken Whistler <ken@unicode.org>
#
#	General notes:
#
#	This table contains the data the Unicode Consortium has on how
#       ISO/IEC 8859-1:1998 characters map into Unicode.
#
#	Format:  Three tab-separated columns
#		 Column #1 is the ISO/IEC 8859-1 code (in hex as 0xXX)
#		 Column #2 is the Unicode (in hex as 0xXXXX)
#		 Column #3 the Unicode name (follows a comment sign, '#')
#
#	The entries are in ISO/IEC 8859-1 order.
#
#	Version history
#   1.0 version: updates 0.1 version by adding mappings for all
#       control characters.
#   2.0 version: updates to copyright notice and terms of use; no
#       changes to character mappings
#
#	Updated versions of this file may be found in:
#		http://www.unicode.org/Public/MAPPINGS/
#
#	Any comments or problems, contact us at:
#       http://www.unicode.org/reporting.html
#
0x00	0x0000	#	NULL
0x01	0x0001	#	START OF HEADING
0x02	0x0002	#	START OF TEXT
0x03	0x0003	#	END OF TEXT
0x04	0x0004	#	END OF TRANSMISSION
0x05	0x0005	#	ENQUIRY
0x06	0x0006	#	ACKNOWLEDGE
0x07	0x0007	#	BELL
0x08	0x0008	#	BACKSPACE
0x09	0x0009	#	HORIZONTAL TABULATION
0x0A	0x000A	#	LINE FEED
0x0B	0x000B	#	VERTICAL TABULATION
0x0C	0x000C	#	FORM FEED
0x0D	0x000D	#	CARRIAGE RETURN
0x0E	0x000E	#	SHIFT OUT
0x0F	0x000F	#	SHIFT IN
0x10	0x0010	#	DATA LINK ESCAPE
0x11	0x0011	#	DEVICE CONTROL ONE
0x12	0x0012	#	DEVICE CONTROL TWO
0x13	0x0013	#	DEVICE CONTROL THREE
0x14	0x0014	#	DEVICE CONTROL FOUR
0x15	0x0015	#	NEGATIVE ACKNOWLEDGE
0x16	0x0016	#	SYNCHRONOUS IDLE
0x17	0x0017	#	END OF TRANSMISSION BLOCK
0x18	0x0018	#	CANCEL
0x19	0x0019	#	END OF MEDIUM
0x1A	0x001A	#	SUBSTITUTE
0x1B	0x001B	#	ESCAPE
0x1C	0x001C	#	FILE SEPARATOR
0x1D	0x001D	#	GROUP SEPARATOR
0x1E	0x001E	#	RECORD SEPARATOR
0x1F	0x001F	#	UNIT SEPARATOR
0x20	0x0020	#	SPACE
0x21	0x0021	#	EXCLAMATION MARK
0x22	0x0022	#	QUOTATION MARK
0x23	0x0023	#	NUMBER SIGN
0x24	0x0024	#	DOLLAR SIGN
0x25	0x0025	#	PERCENT SIGN
0x26	0x0026	#	AMPERSAND
0x27	0x0027	#	APOSTROPHE
0x28	0x0028	#	LEFT PARENTHESIS
0x29	0x0029	#	RIGHT PARENTHESIS
0x2A	0x002A	#	ASTERISK
0x2B	0x002B	#	PLUS SIGN
0x2C	0x002C	#	COMMA
0x2D	0x002D	#	HYPHEN-MINUS
0x2E	0x002E	#	FULL STOP
0x2F	0x002F	#	SOLIDUS
0x30	0x0030	#	DIGIT ZERO
0x31	0x0031	#	DIGIT ONE
0x32	0x0032	#	DIGIT TWO
0x33	0x0033	#	DIGIT THREE
0x34	0x0034	#	DIGIT FOUR
0x35	0x0035	#	DIGIT FIVE
0x36	0x0036	#	DIGIT SIX
0x37	0x0037	#	DIGIT SEVEN
0x38	0x0038	#	DIGIT EIGHT
0x39	0x0039	#	DIGIT NINE
0x3A	0x003A	#	COLON
0x3B	0x003B	#	SEMICOLON
0x3C	0x003C	#	LESS-THAN SIGN
0x3D	0x003D	#	EQUALS SIGN
0x3E	0x003E	#	GREATER-THAN SIGN
0x3F	0x003F	#	QUESTION MARK
0x40	0x0040	#	COMMERCIAL AT
0x41	0x0041	#	LATIN CAPITAL LETTER A
0x42	0x0042	#	LATIN CAPITAL LETTER B
0x43	0x0043	#	LATIN CAPITAL LETTER C
0x44	0x0044	#	LATIN CAPITAL LETTER D
0x45	0x0045	#	LATIN CAPITAL LETTER E
0x46	0x0046	#	LATIN CAPITAL LETTER F
0x47	0x0047	#	LATIN CAPITAL LETTER G
0x48	0x0048	#	LATIN CAPITAL LETTER H
0x49	0x0049	#	LATIN CAPITAL LETTER I
0x4A	0x004A	#	LATIN CAPITAL LETTER J
0x4B	0x004B	#	LATIN CAPITAL LETTER K
0x4C	0x004C	#	LATIN CAPITAL LETTER L
0x4D	0x004D	#	LATIN CAPITAL LETTER M
0x4E	0x004E	#	LATIN CAPITAL LETTER N
0x4F	0x004F	#	LATIN CAPITAL LETTER O
0x50	0x0050	#	LATIN CAPITAL LETTER P
0x51	0x0051	#	LATIN CAPITAL LETTER Q
0x52	0x0052	#	LATIN CAPITAL LETTER R
0x53	0x0053	#	LATIN CAPITAL LETTER S
0x54	0x0054	#	LATIN CAPITAL LETTER T
0x55	0x0055	#	LATIN CAPITAL LETTER U
0x56	0x0056	#	LATIN CAPITAL LETTER V
0x57	0x0057	#	LATIN CAPITAL LETTER W
0x58	0x0058	#	LATIN CAPITAL LETTER X
0x59	0x0059	#	LATIN CAPITAL LETTER Y
0x5A	0x005A	#	LATIN CAPITAL LETTER Z
0x5B	0x005B	#	LEFT SQUARE BRACKET
0x5C	0x005C	#	REVERSE SOLIDUS
0x5D	0x005D	#	RIGHT SQUARE BRACKET
0x5E	0x005E	#	CIRCUMFLEX ACCENT
0x5F	0x005F	#	LOW LINE
0x60	0x0060	#	GRAVE ACCENT
0x61	0x0061	#	LATIN SMALL LETTER A
0x62	0x0062	#	LATIN SMALL LETTER B
0x63	0x0063	#	LATIN SMALL LETTER C
0x64	0x0064	#	LATIN SMALL LETTER D
0x65	0x0065	#	LATIN SMALL LETTER E
0x66	0x0066	#	LATIN SMALL LETTER F
0x67	0x0067	#	LATIN SMALL LETTER G
0x68	0x0068	#	LATIN SMALL LETTER H
0x69	0x0069	#	LATIN SMALL LETTER I
0x6A	0x006A	#	LATIN SMALL LETTER J
0x6B	0x006B	#	LATIN SMALL LETTER K
0x6C	0x006C	#	LATIN SMALL LETTER L
0x6D	0x006D	#	LATIN SMALL LETTER M
0x6E	0x006E	#	LATIN SMALL LETTER N
0x6F	0x006F	#	LATIN SMALL LETTER O
0x70	0x0070	#	LATIN SMALL LETTER P
0x71	0x0071	#	LATIN SMALL LETTER Q
0x72	0x0072	#	LATIN SMALL LETTER R
0x73	0x0073	#	LATIN SMALL LETTER S
0x74	0x0074	#	LATIN SMALL LETTER T
0x75	0x0075	#	LATIN SMALL LETTER U
0x76	0x0076	#	LATIN SMALL LETTER V
0x77	0x0077	#	LATIN SMALL LETTER W
0x78	0x0078	#	LATIN SMALL LETTER X
0x79	0x0079	#	LATIN SMALL LETTER Y
0x7A	0x007A	#	LATIN SMALL LETTER Z
0x7B	0x007B	#	LEFT CURLY BRACKET
0x7C	0x007C	#	VERTICAL LINE
0x7D	0x007D	#	RIGHT CURLY BRACKET
0x7E	0x007E	#	TILDE
0x7F	0x007F	#	DELETE
0x80	0x0080	#	<control>
0x81	0x0081	#	<control>
0x82	0x0082	#	<control>
0x83	0x0083	#	<control>
0x84	0x0084	#	<control>
0x85	0x0085	#	<control>
0x86	0x0086	#	<control>
0x87	0x0087	#	<control>
0x88	0x0088	#	<control>
0x89	0x0089	#	<control>
0x8A	0x008A	#	<control>
0x8B	0x008B	#	<control>
0x8C	0x008C	#	<control>
0x8D	0x008D	#	<control>
0x8E	0x008E	#	<control>
0x8F	0x008F	#	<control>
0x90	0x0090	#	<control>
0x91	0x0091	#	<control>
0x92	0x0092	#	<control>
0x93	0x0093	#	<control>
0x94	0x0094	#	<control>
0x95	0x0095	#	<control>
0x96	0x0096	#	<control>
0x97	0x0097	#	<control>
0x98	0x0098	#	<control>
0x99	0x0099	#	<control>
0x9A	0x009A	#	<control>
0x9B	0x009B	#	<control>
0x9C	0x009C	#	<control>
0x9D	0x009D	#	<control>
0x9E	0x009E	#	<control>
0x9F	0x009F	#	<control>
0xA0	0x00A0	#	NO-BREAK SPACE
0xA1	0x00A1	#	INVERTED EXCLAMATION MARK
0xA2	0x00A2	#	CENT SIGN
0xA3	0x00A3	#	POUND SIGN
0xA4	0x00A4	#	CURRENCY SIGN
0xA5	0x00A5	#	YEN SIGN
0xA6	0x00A6	#	BROKEN BAR
0xA7	0x00A7	#	SECTION SIGN
0xA8	0x00A8	#	DIAERESIS
0xA9	0x00A9	#	COPYRIGHT SIGN
0xAA	0x00AA	#	FEMININE ORDINAL INDICATOR
0xAB	0x00AB	#	LEFT-POINTING DOUBLE ANGLE QUOTATION MARK
0xAC	0x00AC	#	NOT SIGN
0xAD	0x00AD	#	SOFT HYPHEN
0xAE	0x00AE	#	REGISTERED SIGN
0xAF	0x00AF	#	MACRON
0xB0	0x00B0	#	DEGREE SIGN
0xB1	0x00B1	#	PLUS-MINUS SIGN
0xB2	0x00B2	#	SUPERSCRIPT TWO
0xB3	0x00B3	#	SUPERSCRIPT THREE
0xB4	0x00B4	#	ACUTE ACCENT
0xB5	0x00B5	#	MICRO SIGN
0xB6	0x00B6	#	PILCROW SIGN
0xB7	0x00B7	#	MIDDLE DOT
0xB8	0x00B8	#	CEDILLA
0xB9	0x00B9	#	SUPERSCRIPT ONE
0xBA	0x00BA	#	MASCULINE ORDINAL INDICATOR
0xBB	0x00BB	#	RIGHT-POINTING DOUBLE ANGLE QUOTATION MARK
0xBC	0x00BC	#	VULGAR FRACTION ONE QUARTER
0xBD	0x00BD	#	VULGAR FRACTION ONE HALF
0xBE	0x00BE	#	VULGAR FRACTION THREE QUARTERS
0xBF	0x00BF	#	INVERTED QUESTION MARK
0xC0	0x00C0	#	LATIN CAPITAL LETTER A WITH GRAVE
0xC1	0x00C1	#	LATIN CAPITAL LETTER A WITH ACUTE
0xC2	0x00C2	#	LATIN CAPITAL LETTER A WITH CIRCUMFLEX
0xC3	0x00C3	#	LATIN CAPITAL LETTER A WITH TILDE
0xC4	0x00C4	#	LATIN CAPITAL LETTER A WITH DIAERESIS
0xC5	0x00C5	#	LATIN CAPITAL LETTER A WITH RING ABOVE
0xC6	0x00C6	#	LATIN CAPITAL LETTER AE
0xC7	0x00C7	#	LATIN CAPITAL LETTER C WITH CEDILLA
0xC8	0x00C8	#	LATIN CAPITAL LETTER E WITH GRAVE
0xC9	0x00C9	#	LATIN CAPITAL LETTER E WITH ACUTE
0xCA	0x00CA	#	LATIN CAPITAL LETTER E WITH CIRCUMFLEX
0xCB	0x00CB	#	LATIN CAPITAL LETTER E WITH DIAERESIS
0xCC	0x00CC	#	LATIN CAPITAL LETTER I WITH GRAVE
0xCD	0x00CD	#	LATIN CAPITAL LETTER I WITH ACUTE
0xCE	0x00CE	#	LATIN CAPITAL LETTER I WITH CIRCUMFLEX
0xCF	0x00CF	#	LATIN CAPITAL LETTER I WITH DIAERESIS
0xD0	0x00D0	#	LATIN CAPITAL LETTER ETH (Icelandic)
0xD1	0x00D1	#	LATIN CAPITAL LETTER N WITH TILDE
0xD2	0x00D2	#	LATIN CAPITAL LETTER O WITH GRAVE
0xD3	0x00D3	#	LATIN CAPITAL LETTER O WITH ACUTE
0xD4	0x00D4	#	LATIN CAPITAL LETTER O WITH CIRCUMFLEX
0xD5	0x00D5	#	LATIN CAPITAL LETTER O WITH TILDE
0xD6	0x00D6	#	LATIN CAPITAL LETTER O WITH DIAERESIS
0xD7	0x00D7	#	MULTIPLICATION SIGN
0xD8	0x00D8	#	LATIN CAPITAL LETTER O WITH STROKE
0xD9	0x00D9	#	LATIN CAPITAL LETTER U WITH GRAVE
0xDA	0x00DA	#	LATIN CAPITAL LETTER U WITH ACUTE
0xDB	0x00DB	#	LATIN CAPITAL LETTER U WITH CIRCUMFLEX
0xDC	0x00DC	#	LATIN CAPITAL LETTER U WITH DIAERESIS
0xDD	0x00DD	#	LATIN CAPITAL LETTER Y WITH ACUTE
0xDE	0x00DE	#	LATIN CAPITAL LETTER THORN (Icelandic)
0xDF	0x00DF	#	LATIN SMALL LETTER SHARP S (German)
0xE0	0x00E0	#	LATIN SMALL LETTER A WITH GRAVE
0xE1	0x00E1	#	LATIN SMALL LETTER A WITH ACUTE
0xE2	0x00E2	#	LATIN SMALL LETTER A WITH CIRCUMFLEX
0xE3	0x00E3	#	LATIN SMALL LETTER A WITH TILDE
0xE4	0x00E4	#	LATIN SMALL LETTER A WITH DIAERESIS
0xE5	0x00E5	#	LATIN SMALL LETTER A WITH RING ABOVE
0xE6	0x00E6	#	LATIN SMALL LETTER AE
0xE7	0x00E7	#	LATIN SMALL LETTER C WITH CEDILLA
0xE8	0x00E8	#	LATIN SMALL LETTER E WITH GRAVE
0xE9	0x00E9	#	LATIN SMALL LETTER E WITH ACUTE
0xEA	0x00EA	#	LATIN SMALL LETTER E WITH CIRCUMFLEX
0xEB	0x00EB	#	LATIN SMALL LETTER E WITH DIAERESIS
0xEC	0x00EC	#	LATIN SMALL LETTER I WITH GRAVE
0xED	0x00ED	#	LATIN SMALL LETTER I WITH ACUTE
0xEE	0x00EE	#	LATIN SMALL LETTER I WITH CIRCUMFLEX
0xEF	0x00EF	#	LATIN SMALL LETTER I WITH DIAERESIS
0xF0	0x00F0	#	LATIN SMALL LETTER ETH (Icelandic)
0xF1	0x00F1	#	LATIN SMALL LETTER N WITH TILDE
0xF2	0x00F2	#	LATIN SMALL LETTER O WITH GRAVE
0xF3	0x00F3	#	LATIN SMALL LETTER O WITH ACUTE
0xF4	0x00F4	#	LATIN SMALL LETTER O WITH CIRCUMFLEX
0xF5	0x00F5	#	LATIN SMALL LETTER O WITH TILDE
0xF6	0x00F6	#	LATIN SMALL LETTER O WITH DIAERESIS
0xF7	0x00F7	#	DIVISION SIGN
0xF8	0x00F8	#	LATIN SMALL LETTER O WITH STROKE
0xF9	0x00F9	#	LATIN SMALL LETTER U WITH GRAVE
0xFA	0x00FA	#	LATIN SMALL LETTER U WITH ACUTE
0xFB	0x00FB	#	LATIN SMALL LETTER U WITH CIRCUMFLEX
0xFC	0x00FC	#	LATIN SMALL LETTER U WITH DIAERESIS
0xFD	0x00FD	#	LATIN SMALL LETTER Y WITH ACUTE
0xFE	0x00FE	#	LATIN SMALL LETTER THORN (Icelandic)
0xFF	0x00FF	#	LATIN SMALL LETTER Y WITH DIAERESIS
"#

/-- src/generated/single_byte/iso-8859-1_tables.rs.inc:1-72 -/
noncomputable def iso_8859_1_source : List Text := lines! r#"// This file is auto-generated.  Please see `encoding_tables/single_byte/`
// from the root directory for the files that generate this.

use {DecodeResult, EncodeResult};

pub fn decode_to_str<'a>(
    input: &[u8],
    out_buffer: &'a mut [u8],
) -> DecodeResult<'a> {
    super::ascii_ext_decode_to_str(&DECODE_TABLE, input, out_buffer)
}

pub fn encode_from_str<'a>(
    input: &str,
    out_buffer: &'a mut [u8],
) -> EncodeResult<'a> {
    super::ascii_ext_encode_from_str(&ENCODE_TABLE, input, out_buffer)
}

const DECODE_TABLE: [char; 128] = [
    '\u{0080}','\u{0081}','\u{0082}','\u{0083}','\u{0084}','\u{0085}','\u{0086}','\u{0087}',
    '\u{0088}','\u{0089}','\u{008A}','\u{008B}','\u{008C}','\u{008D}','\u{008E}','\u{008F}',
    '\u{0090}','\u{0091}','\u{0092}','\u{0093}','\u{0094}','\u{0095}','\u{0096}','\u{0097}',
    '\u{0098}','\u{0099}','\u{009A}','\u{009B}','\u{009C}','\u{009D}','\u{009E}','\u{009F}',
    '\u{00A0}','\u{00A1}','\u{00A2}','\u{00A3}','\u{00A4}','\u{00A5}','\u{00A6}','\u{00A7}',
    '\u{00A8}','\u{00A9}','\u{00AA}','\u{00AB}','\u{00AC}','\u{00AD}','\u{00AE}','\u{00AF}',
    '\u{00B0}','\u{00B1}','\u{00B2}','\u{00B3}','\u{00B4}','\u{00B5}','\u{00B6}','\u{00B7}',
    '\u{00B8}','\u{00B9}','\u{00BA}','\u{00BB}','\u{00BC}','\u{00BD}','\u{00BE}','\u{00BF}',
    '\u{00C0}','\u{00C1}','\u{00C2}','\u{00C3}','\u{00C4}','\u{00C5}','\u{00C6}','\u{00C7}',
    '\u{00C8}','\u{00C9}','\u{00CA}','\u{00CB}','\u{00CC}','\u{00CD}','\u{00CE}','\u{00CF}',
    '\u{00D0}','\u{00D1}','\u{00D2}','\u{00D3}','\u{00D4}','\u{00D5}','\u{00D6}','\u{00D7}',
    '\u{00D8}','\u{00D9}','\u{00DA}','\u{00DB}','\u{00DC}','\u{00DD}','\u{00DE}','\u{00DF}',
    '\u{00E0}','\u{00E1}','\u{00E2}','\u{00E3}','\u{00E4}','\u{00E5}','\u{00E6}','\u{00E7}',
    '\u{00E8}','\u{00E9}','\u{00EA}','\u{00EB}','\u{00EC}','\u{00ED}','\u{00EE}','\u{00EF}',
    '\u{00F0}','\u{00F1}','\u{00F2}','\u{00F3}','\u{00F4}','\u{00F5}','\u{00F6}','\u{00F7}',
    '\u{00F8}','\u{00F9}','\u{00FA}','\u{00FB}','\u{00FC}','\u{00FD}','\u{00FE}','\u{00FF}',
];

const ENCODE_TABLE: [(char, u8); 128] = [
    ('\u{0080}', 0x80), ('\u{0081}', 0x81), ('\u{0082}', 0x82), ('\u{0083}', 0x83), 
    ('\u{0084}', 0x84), ('\u{0085}', 0x85), ('\u{0086}', 0x86), ('\u{0087}', 0x87), 
    ('\u{0088}', 0x88), ('\u{0089}', 0x89), ('\u{008A}', 0x8A), ('\u{008B}', 0x8B), 
    ('\u{008C}', 0x8C), ('\u{008D}', 0x8D), ('\u{008E}', 0x8E), ('\u{008F}', 0x8F), 
    ('\u{0090}', 0x90), ('\u{0091}', 0x91), ('\u{0092}', 0x92), ('\u{0093}', 0x93), 
    ('\u{0094}', 0x94), ('\u{0095}', 0x95), ('\u{0096}', 0x96), ('\u{0097}', 0x97), 
    ('\u{0098}', 0x98), ('\u{0099}', 0x99), ('\u{009A}', 0x9A), ('\u{009B}', 0x9B), 
    ('\u{009C}', 0x9C), ('\u{009D}', 0x9D), ('\u{009E}', 0x9E), ('\u{009F}', 0x9F), 
    ('\u{00A0}', 0xA0), ('\u{00A1}', 0xA1), ('\u{00A2}', 0xA2), ('\u{00A3}', 0xA3), 
    ('\u{00A4}', 0xA4), ('\u{00A5}', 0xA5), ('\u{00A6}', 0xA6), ('\u{00A7}', 0xA7), 
    ('\u{00A8}', 0xA8), ('\u{00A9}', 0xA9), ('\u{00AA}', 0xAA), ('\u{00AB}', 0xAB), 
    ('\u{00AC}', 0xAC), ('\u{00AD}', 0xAD), ('\u{00AE}', 0xAE), ('\u{00AF}', 0xAF), 
    ('\u{00B0}', 0xB0), ('\u{00B1}', 0xB1), ('\u{00B2}', 0xB2), ('\u{00B3}', 0xB3), 
    ('\u{00B4}', 0xB4), ('\u{00B5}', 0xB5), ('\u{00B6}', 0xB6), ('\u{00B7}', 0xB7), 
    ('\u{00B8}', 0xB8), ('\u{00B9}', 0xB9), ('\u{00BA}', 0xBA), ('\u{00BB}', 0xBB), 
    ('\u{00BC}', 0xBC), ('\u{00BD}', 0xBD), ('\u{00BE}', 0xBE), ('\u{00BF}', 0xBF), 
    ('\u{00C0}', 0xC0), ('\u{00C1}', 0xC1), ('\u{00C2}', 0xC2), ('\u{00C3}', 0xC3), 
    ('\u{00C4}', 0xC4), ('\u{00C5}', 0xC5), ('\u{00C6}', 0xC6), ('\u{00C7}', 0xC7), 
    ('\u{00C8}', 0xC8), ('\u{00C9}', 0xC9), ('\u{00CA}', 0xCA), ('\u{00CB}', 0xCB), 
    ('\u{00CC}', 0xCC), ('\u{00CD}', 0xCD), ('\u{00CE}', 0xCE), ('\u{00CF}', 0xCF), 
    ('\u{00D0}', 0xD0), ('\u{00D1}', 0xD1), ('\u{00D2}', 0xD2), ('\u{00D3}', 0xD3), 
    ('\u{00D4}', 0xD4), ('\u{00D5}', 0xD5), ('\u{00D6}', 0xD6), ('\u{00D7}', 0xD7), 
    ('\u{00D8}', 0xD8), ('\u{00D9}', 0xD9), ('\u{00DA}', 0xDA), ('\u{00DB}', 0xDB), 
    ('\u{00DC}', 0xDC), ('\u{00DD}', 0xDD), ('\u{00DE}', 0xDE), ('\u{00DF}', 0xDF), 
    ('\u{00E0}', 0xE0), ('\u{00E1}', 0xE1), ('\u{00E2}', 0xE2), ('\u{00E3}', 0xE3), 
    ('\u{00E4}', 0xE4), ('\u{00E5}', 0xE5), ('\u{00E6}', 0xE6), ('\u{00E7}', 0xE7), 
    ('\u{00E8}', 0xE8), ('\u{00E9}', 0xE9), ('\u{00EA}', 0xEA), ('\u{00EB}', 0xEB), 
    ('\u{00EC}', 0xEC), ('\u{00ED}', 0xED), ('\u{00EE}', 0xEE), ('\u{00EF}', 0xEF), 
    ('\u{00F0}', 0xF0), ('\u{00F1}', 0xF1), ('\u{00F2}', 0xF2), ('\u{00F3}', 0xF3), 
    ('\u{00F4}', 0xF4), ('\u{00F5}', 0xF5), ('\u{00F6}', 0xF6), ('\u{00F7}', 0xF7), 
    ('\u{00F8}', 0xF8), ('\u{00F9}', 0xF9), ('\u{00FA}', 0xFA), ('\u{00FB}', 0xFB), 
    ('\u{00FC}', 0xFC), ('\u{00FD}', 0xFD), ('\u{00FE}', 0xFE), ('\u{00FF}', 0xFF), 
];
"#

/-- encoding_tables/single_byte/ascii_ext/iso-8859-2.txt:1-292 -/
noncomputable def iso_8859_2_mapping : List Text := lines! r#"# 8859-2.TXT
# Date: 2015-12-02 21:34:00 GMT [KW]
# © 2015 Unicode®, Inc.
# For terms of use, see http://www.unicode.org/terms_of_use.html
#
#	Name:             ISO 8859-2:1999 to Unicode
#	Unicode version:  3.0
#	Table version:    2.0
#	Table format:     Format A
#	Date:             1999 July 27 (header updated: 2015 December 02)
#	Authors:          Ken Whistler <ken@unicode.org>
#
#	General notes:
#
#	This table contains the data the Unicode Consortium has on how
#       ISO/IEC 8859-2:1999 characters map into Unicode.
#
#	Format:  Three tab-separated columns
#		 Column #1 is the ISO/IEC 8859-2 code (in hex as 0xXX)
#		 Column #2 is the Unicode (in hex as 0xXXXX)
#		 Column #3 the Unicode name (follows a comment sign, '#')
#
#	The entries are in ISO/IEC 8859-2 order.
#
#	Version history
#   1.0 version: updates 0.1 version by adding mappings for all
#       control characters.
#   2.0 version: updates to copyright notice and terms of use; no
#       changes to character mappings
#
#	Updated versions of this file may be found in:
#		http://www.unicode.org/Public/MAPPINGS/
#
#	Any comments or problems, contact us at:
#       http://www.unicode.org/reporting.html
#
0x00	0x0000	#	NULL
0x01	0x0001	#	START OF HEADING
0x02	0x0002	#	START OF TEXT
0x03	0x0003	#	END OF TEXT
0x04	0x0004	#	END OF TRANSMISSION
0x05	0x0005	#	ENQUIRY
0x06	0x0006	#	ACKNOWLEDGE
0x07	0x0007	#	BELL
0x08	0x0008	#	BACKSPACE
0x09	0x0009	#	HORIZONTAL TABULATION
0x0A	0x000A	#	LINE FEED
0x0B	0x000B	#	VERTICAL TABULATION
0x0C	0x000C	#	FORM FEED
0x0D	0x000D	#	CARRIAGE RETURN
0x0E	0x000E	#	SHIFT OUT
0x0F	0x000F	#	SHIFT IN
0x10	0x0010	#	DATA LINK ESCAPE
0x11	0x0011	#	DEVICE CONTROL ONE
0x12	0x0012	#	DEVICE CONTROL TWO
0x13	0x0013	#	DEVICE CONTROL THREE
0x14	0x0014	#	DEVICE CONTROL FOUR
0x15	0x0015	#	NEGATIVE ACKNOWLEDGE
0x16	0x0016	#	SYNCHRONOUS IDLE
0x17	0x0017	#	END OF TRANSMISSION BLOCK
0x18	0x0018	#	CANCEL
0x19	0x0019	#	END OF MEDIUM
0x1A	0x001A	#	SUBSTITUTE
0x1B	0x001B	#	ESCAPE
0x1C	0x001C	#	FILE SEPARATOR
0x1D	0x001D	#	GROUP SEPARATOR
0x1E	0x001E	#	RECORD SEPARATOR
0x1F	0x001F	#	UNIT SEPARATOR
0x20	0x0020	#	SPACE
0x21	0x0021	#	EXCLAMATION MARK
0x22	0x0022	#	QUOTATION MARK
0x23	0x0023	#	NUMBER SIGN
0x24	0x0024	#	DOLLAR SIGN
0x25	0x0025	#	PERCENT SIGN
0x26	0x0026	#	AMPERSAND
0x27	0x0027	#	APOSTROPHE
0x28	0x0028	#	LEFT PARENTHESIS
0x29	0x0029	#	RIGHT PARENTHESIS
0x2A	0x002A	#	ASTERISK
0x2B	0x002B	#	PLUS SIGN
0x2C	0x002C	#	COMMA
0x2D	0x002D	#	HYPHEN-MINUS
0x2E	0x002E	#	FULL STOP
0x2F	0x002F	#	SOLIDUS
0x30	0x0030	#	DIGIT ZERO
0x31	0x0031	#	DIGIT ONE
0x32	0x0032	#	DIGIT TWO
0x33	0x0033	#	DIGIT THREE
0x34	0x0034	#	DIGIT FOUR
0x35	0x0035	#	DIGIT FIVE
0x36	0x0036	#	DIGIT SIX
0x37	0x0037	#	DIGIT SEVEN
0x38	0x0038	#	DIGIT EIGHT
0x39	0x0039	#	DIGIT NINE
0x3A	0x003A	#	COLON
0x3B	0x003B	#	SEMICOLON
0x3C	0x003C	#	LESS-THAN SIGN
0x3D	0x003D	#	EQUALS SIGN
0x3E	0x003E	#	GREATER-THAN SIGN
0x3F	0x003F	#	QUESTION MARK
0x40	0x0040	#	COMMERCIAL AT
0x41	0x0041	#	LATIN CAPITAL LETTER A
0x42	0x0042	#	LATIN CAPITAL LETTER B
0x43	0x0043	#	LATIN CAPITAL LETTER C
0x44	0x0044	#	LATIN CAPITAL LETTER D
0x45	0x0045	#	LATIN CAPITAL LETTER E
0x46	0x0046	#	LATIN CAPITAL LETTER F
0x47	0x0047	#	LATIN CAPITAL LETTER G
0x48	0x0048	#	LATIN CAPITAL LETTER H
0x49	0x0049	#	LATIN CAPITAL LETTER I
0x4A	0x004A	#	LATIN CAPITAL LETTER J
0x4B	0x004B	#	LATIN CAPITAL LETTER K
0x4C	0x004C	#	LATIN CAPITAL LETTER L
0x4D	0x004D	#	LATIN CAPITAL LETTER M
0x4E	0x004E	#	LATIN CAPITAL LETTER N
0x4F	0x004F	#	LATIN CAPITAL LETTER O
0x50	0x0050	#	LATIN CAPITAL LETTER P
0x51	0x0051	#	LATIN CAPITAL LETTER Q
0x52	0x0052	#	LATIN CAPITAL LETTER R
0x53	0x0053	#	LATIN CAPITAL LETTER S
0x54	0x0054	#	LATIN CAPITAL LETTER T
0x55	0x0055	#	LATIN CAPITAL LETTER U
0x56	0x0056	#	LATIN CAPITAL LETTER V
0x57	0x0057	#	LATIN CAPITAL LETTER W
0x58	0x0058	#	LATIN CAPITAL LETTER X
0x59	0x0059	#	LATIN CAPITAL LETTER Y
0x5A	0x005A	#	LATIN CAPITAL LETTER Z
0x5B	0x005B	#	LEFT SQUARE BRACKET
0x5C	0x005C	#	REVERSE SOLIDUS
0x5D	0x005D	#	RIGHT SQUARE BRACKET
0x5E	0x005E	#	CIRCUMFLEX ACCENT
0x5F	0x005F	#	LOW LINE
0x60	0x0060	#	GRAVE ACCENT
0x61	0x0061	#	LATIN SMALL LETTER A
0x62	0x0062	#	LATIN SMALL LETTER B
0x63	0x0063	#	LATIN SMALL LETTER C
0x64	0x0064	#	LATIN SMALL LETTER D
0x65	0x0065	#	LATIN SMALL LETTER E
0x66	0x0066	#	LATIN SMALL LETTER F
0x67	0x0067	#	LATIN SMALL LETTER G
0x68	0x0068	#	LATIN SMALL LETTER H
0x69	0x0069	#	LATIN SMALL LETTER I
0x6A	0x006A	#	LATIN SMALL LETTER J
0x6B	0x006B	#	LATIN SMALL LETTER K
0x6C	0x006C	#	LATIN SMALL LETTER L
0x6D	0x006D	#	LATIN SMALL LETTER M
0x6E	0x006E	#	LATIN SMALL LETTER N
0x6F	0x006F	#	LATIN SMALL LETTER O
0x70	0x0070	#	LATIN SMALL LETTER P
0x71	0x0071	#	LATIN SMALL LETTER Q
0x72	0x0072	#	LATIN SMALL LETTER R
0x73	0x0073	#	LATIN SMALL LETTER S
0x74	0x0074	#	LATIN SMALL LETTER T
0x75	0x0075	#	LATIN SMALL LETTER U
0x76	0x0076	#	LATIN SMALL LETTER V
0x77	0x0077	#	LATIN SMALL LETTER W
0x78	0x0078	#	LATIN SMALL LETTER X
0x79	0x0079	#	LATIN SMALL LETTER Y
0x7A	0x007A	#	LATIN SMALL LETTER Z
0x7B	0x007B	#	LEFT CURLY BRACKET
0x7C	0x007C	#	VERTICAL LINE
0x7D	0x007D	#	RIGHT CURLY BRACKET
0x7E	0x007E	#	TILDE
0x7F	0x007F	#	DELETE
0x80	0x0080	#	<control>
0x81	0x0081	#	<control>
0x82	0x0082	#	<control>
0x83	0x0083	#	<control>
0x84	0x0084	#	<control>
0x85	0x0085	#	<control>
0x86	0x0086	#	<control>
0x87	0x0087	#	<control>
0x88	0x0088	#	<control>
0x89	0x0089	#	<control>
0x8A	0x008A	#	<control>
0x8B	0x008B	#	<control>
0x8C	0x008C	#	<control>
0x8D	0x008D	#	<control>
0x8E	0x008E	#	<control>
0x8F	0x008F	#	<control>
0x90	0x0090	#	<control>
0x91	0x0091	#	<control>
0x92	0x0092	#	<control>
0x93	0x0093	#	<control>
0x94	0x0094	#	<control>
0x95	0x0095	#	<control>
0x96	0x0096	#	<control>
0x97	0x0097	#	<control>
0x98	0x0098	#	<control>
0x99	0x0099	#	<control>
0x9A	0x009A	#	<control>
0x9B	0x009B	#	<control>
0x9C	0x009C	#	<control>
0x9D	0x009D	#	<control>
0x9E	0x009E	#	<control>
0x9F	0x009F	#	<control>
0xA0	0x00A0	#	NO-BREAK SPACE
0xA1	0x0104	#	LATIN CAPITAL LETTER A WITH OGONEK
0xA2	0x02D8	#	BREVE
0xA3	0x0141	#	LATIN CAPITAL LETTER L WITH STROKE
0xA4	0x00A4	#	CURRENCY SIGN
0xA5	0x013D	#	LATIN CAPITAL LETTER L WITH CARON
0xA6	0x015A	#	LATIN CAPITAL LETTER S WITH ACUTE
0xA7	0x00A7	#	SECTION SIGN
0xA8	0x00A8	#	DIAERESIS
0xA9	0x0160	#	LATIN CAPITAL LETTER S WITH CARON
0xAA	0x015E	#	LATIN CAPITAL LETTER S WITH CEDILLA
0xAB	0x0164	#	LATIN CAPITAL LETTER T WITH CARON
0xAC	0x0179	#	LATIN CAPITAL LETTER Z WITH ACUTE
0xAD	0x00AD	#	SOFT HYPHEN
0xAE	0x017D	#	LATIN CAPITAL LETTER Z WITH CARON
0xAF	0x017B	#	LATIN CAPITAL LETTER Z WITH DOT ABOVE
0xB0	0x00B0	#	DEGREE SIGN
0xB1	0x0105	#	LATIN SMALL LETTER A WITH OGONEK
0xB2	0x02DB	#	OGONEK
0xB3	0x0142	#	LATIN SMALL LETTER L WITH STROKE
0xB4	0x00B4	#	ACUTE ACCENT
0xB5	0x013E	#	LATIN SMALL LETTER L WITH CARON
0xB6	0x015B	#	LATIN SMALL LETTER S WITH ACUTE
0xB7	0x02C7	#	CARON
0xB8	0x00B8	#	CEDILLA
0xB9	0x0161	#	LATIN SMALL LETTER S WITH CARON
0xBA	0x015F	#	LATIN SMALL LETTER S WITH CEDILLA
0xBB	0x0165	#	LATIN SMALL LETTER T WITH CARON
0xBC	0x017A	#	LATIN SMALL LETTER Z WITH ACUTE
0xBD	0x02DD	#	DOUBLE ACUTE ACCENT
0xBE	0x017E	#	LATIN SMALL LETTER Z WITH CARON
0xBF	0x017C	#	LATIN SMALL LETTER Z WITH DOT ABOVE
0xC0	0x0154	#	LATIN CAPITAL LETTER R WITH ACUTE
0xC1	0x00C1	#	LATIN CAPITAL LETTER A WITH ACUTE
0xC2	0x00C2	#	LATIN CAPITAL LETTER A WITH CIRCUMFLEX
0xC3	0x0102	#	LATIN CAPITAL LETTER A WITH BREVE
0xC4	0x00C4	#	LATIN CAPITAL LETTER A WITH DIAERESIS
0xC5	0x0139	#	LATIN CAPITAL LETTER L WITH ACUTE
0xC6	0x0106	#	LATIN CAPITAL LETTER C WITH ACUTE
0xC7	0x00C7	#	LATIN CAPITAL LETTER C WITH CEDILLA
0xC8	0x010C	#	LATIN CAPITAL LETTER C WITH CARON
0xC9	0x00C9	#	LATIN CAPITAL LETTER E WITH ACUTE
0xCA	0x0118	#	LATIN CAPITAL LETTER E WITH OGONEK
0xCB	0x00CB	#	LATIN CAPITAL LETTER E WITH DIAERESIS
0xCC	0x011A	#	LATIN CAPITAL LETTER E WITH CARON
0xCD	0x00CD	#	LATIN CAPITAL LETTER I WITH ACUTE
0xCE	0x00CE	#	LATIN CAPITAL LETTER I WITH CIRCUMFLEX
0xCF	0x010E	#	LATIN CAPITAL LETTER D WITH CARON
0xD0	0x0110	#	LATIN CAPITAL LETTER D WITH STROKE
0xD1	0x0143	#	LATIN CAPITAL LETTER N WITH ACUTE
0xD2	0x0147	#	LATIN CAPITAL LETTER N WITH CARON
0xD3	0x00D3	#	LATIN CAPITAL LETTER O WITH ACUTE
0xD4	0x00D4	#	LATIN CAPITAL LETTER O WITH CIRCUMFLEX
0xD5	0x0150	#	LATIN CAPITAL LETTER O WITH DOUBLE ACUTE
0xD6	0x00D6	#	LATIN CAPITAL LETTER O WITH DIAERESIS
0xD7	0x00D7	#	MULTIPLICATION SIGN
0xD8	0x0158	#	LATIN CAPITAL LETTER R WITH CARON
0xD9	0x016E	#	LATIN CAPITAL LETTER U WITH RING ABOVE
0xDA	0x00DA	#	LATIN CAPITAL LETTER U WITH ACUTE
0xDB	0x0170	#	LATIN CAPITAL LETTER U WITH DOUBLE ACUTE
0xDC	0x00DC	#	LATIN CAPITAL LETTER U WITH DIAERESIS
0xDD	0x00DD	#	LATIN CAPITAL LETTER Y WITH ACUTE
0xDE	0x0162	#	LATIN CAPITAL LETTER T WITH CEDILLA
0xDF	0x00DF	#	LATIN SMALL LETTER SHARP S
0xE0	0x0155	#	LATIN SMALL LETTER R WITH ACUTE
0xE1	0x00E1	#	LATIN SMALL LETTER A WITH ACUTE
0xE2	0x00E2	#	LATIN SMALL LETTER A WITH CIRCUMFLEX
0xE3	0x0103	#	LATIN SMALL LETTER A WITH BREVE
0xE4	0x00E4	#	LATIN SMALL LETTER A WITH DIAERESIS
0xE5	0x013A	#	LATIN SMALL LETTER L WITH ACUTE
0xE6	0x0107	#	LATIN SMALL LETTER C WITH ACUTE
0xE7	0x00E7	#	LATIN SMALL LETTER C WITH CEDILLA
0xE8	0x010D	#	LATIN SMALL LETTER C WITH CARON
0xE9	0x00E9	#	LATIN SMALL LETTER E WITH ACUTE
0xEA	0x0119	#	LATIN SMALL LETTER E WITH OGONEK
0xEB	0x00EB	#	LATIN SMALL LETTER E WITH DIAERESIS
0xEC	0x011B	#	LATIN SMALL LETTER E WITH CARON
0xED	0x00ED	#	LATIN SMALL LETTER I WITH ACUTE
0xEE	0x00EE	#	LATIN SMALL LETTER I WITH CIRCUMFLEX
0xEF	0x010F	#	LATIN SMALL LETTER D WITH CARON
0xF0	0x0111	#	LATIN SMALL LETTER D WITH STROKE
0xF1	0x0144	#	LATIN SMALL LETTER N WITH ACUTE
0xF2	0x0148	#	LATIN SMALL LETTER N WITH CARON
0xF3	0x00F3	#	LATIN SMALL LETTER O WITH ACUTE
0xF4	0x00F4	#	LATIN SMALL LETTER O WITH CIRCUMFLEX
0xF5	0x0151	#	LATIN SMALL LETTER O WITH DOUBLE ACUTE
0xF6	0x00F6	#	LATIN SMALL LETTER O WITH DIAERESIS
0xF7	0x00F7	#	DIVISION SIGN
0xF8	0x0159	#	LATIN SMALL LETTER R WITH CARON
0xF9	0x016F	#	LATIN SMALL LETTER U WITH RING ABOVE
0xFA	0x00FA	#	LATIN SMALL LETTER U WITH ACUTE
0xFB	0x0171	#	LATIN SMALL LETTER U WITH DOUBLE ACUTE
0xFC	0x00FC	#	LATIN SMALL LETTER U WITH DIAERESIS
0xFD	0x00FD	#	LATIN SMALL LETTER Y WITH ACUTE
0xFE	0x0163	#	LATIN SMALL LETTER T WITH CEDILLA
0xFF	0x02D9	#	DOT ABOVE
"#

/-- src/generated/single_byte/iso-8859-2_tables.rs.inc:1-72 -/
noncomputable def iso_8859_2_source : List Text := lines! r#"// This file is auto-generated.  Please see `encoding_tables/single_byte/`
// from the root directory for the files that generate this.

use {DecodeResult, EncodeResult};

pub fn decode_to_str<'a>(
    input: &[u8],
    out_buffer: &'a mut [u8],
) -> DecodeResult<'a> {
    super::ascii_ext_decode_to_str(&DECODE_TABLE, input, out_buffer)
}

pub fn encode_from_str<'a>(
    input: &str,
    out_buffer: &'a mut [u8],
) -> EncodeResult<'a> {
    super::ascii_ext_encode_from_str(&ENCODE_TABLE, input, out_buffer)
}

const DECODE_TABLE: [char; 128] = [
    '\u{0080}','\u{0081}','\u{0082}','\u{0083}','\u{0084}','\u{0085}','\u{0086}','\u{0087}',
    '\u{0088}','\u{0089}','\u{008A}','\u{008B}','\u{008C}','\u{008D}','\u{008E}','\u{008F}',
    '\u{0090}','\u{0091}','\u{0092}','\u{0093}','\u{0094}','\u{0095}','\u{0096}','\u{0097}',
    '\u{0098}','\u{0099}','\u{009A}','\u{009B}','\u{009C}','\u{009D}','\u{009E}','\u{009F}',
    '\u{00A0}','\u{0104}','\u{02D8}','\u{0141}','\u{00A4}','\u{013D}','\u{015A}','\u{00A7}',
    '\u{00A8}','\u{0160}','\u{015E}','\u{0164}','\u{0179}','\u{00AD}','\u{017D}','\u{017B}',
    '\u{00B0}','\u{0105}','\u{02DB}','\u{0142}','\u{00B4}','\u{013E}','\u{015B}','\u{02C7}',
    '\u{00B8}','\u{0161}','\u{015F}','\u{0165}','\u{017A}','\u{02DD}','\u{017E}','\u{017C}',
    '\u{0154}','\u{00C1}','\u{00C2}','\u{0102}','\u{00C4}','\u{0139}','\u{0106}','\u{00C7}',
    '\u{010C}','\u{00C9}','\u{0118}','\u{00CB}','\u{011A}','\u{00CD}','\u{00CE}','\u{010E}',
    '\u{0110}','\u{0143}','\u{0147}','\u{00D3}','\u{00D4}','\u{0150}','\u{00D6}','\u{00D7}',
    '\u{0158}','\u{016E}','\u{00DA}','\u{0170}','\u{00DC}','\u{00DD}','\u{0162}','\u{00DF}',
    '\u{0155}','\u{00E1}','\u{00E2}','\u{0103}','\u{00E4}','\u{013A}','\u{0107}','\u{00E7}',
    '\u{010D}','\u{00E9}','\u{0119}','\u{00EB}','\u{011B}','\u{00ED}','\u{00EE}','\u{010F}',
    '\u{0111}','\u{0144}','\u{0148}','\u{00F3}','\u{00F4}','\u{0151}','\u{00F6}','\u{00F7}',
    '\u{0159}','\u{016F}','\u{00FA}','\u{0171}','\u{00FC}','\u{00FD}','\u{0163}','\u{02D9}',
];

const ENCODE_TABLE: [(char, u8); 128] = [
    ('\u{0080}', 0x80), ('\u{0081}', 0x81), ('\u{0082}', 0x82), ('\u{0083}', 0x83), 
    ('\u{0084}', 0x84), ('\u{0085}', 0x85), ('\u{0086}', 0x86), ('\u{0087}', 0x87), 
    ('\u{0088}', 0x88), ('\u{0089}', 0x89), ('\u{008A}', 0x8A), ('\u{008B}', 0x8B), 
    ('\u{008C}', 0x8C), ('\u{008D}', 0x8D), ('\u{008E}', 0x8E), ('\u{008F}', 0x8F), 
    ('\u{0090}', 0x90), ('\u{0091}', 0x91), ('\u{0092}', 0x92), ('\u{0093}', 0x93), 
    ('\u{0094}', 0x94), ('\u{0095}', 0x95), ('\u{0096}', 0x96), ('\u{0097}', 0x97), 
    ('\u{0098}', 0x98), ('\u{0099}', 0x99), ('\u{009A}', 0x9A), ('\u{009B}', 0x9B), 
    ('\u{009C}', 0x9C), ('\u{009D}', 0x9D), ('\u{009E}', 0x9E), ('\u{009F}', 0x9F), 
    ('\u{00A0}', 0xA0), ('\u{00A4}', 0xA4), ('\u{00A7}', 0xA7), ('\u{00A8}', 0xA8), 
    ('\u{00AD}', 0xAD), ('\u{00B0}', 0xB0), ('\u{00B4}', 0xB4), ('\u{00B8}', 0xB8), 
    ('\u{00C1}', 0xC1), ('\u{00C2}', 0xC2), ('\u{00C4}', 0xC4), ('\u{00C7}', 0xC7), 
    ('\u{00C9}', 0xC9), ('\u{00CB}', 0xCB), ('\u{00CD}', 0xCD), ('\u{00CE}', 0xCE), 
    ('\u{00D3}', 0xD3), ('\u{00D4}', 0xD4), ('\u{00D6}', 0xD6), ('\u{00D7}', 0xD7), 
    ('\u{00DA}', 0xDA), ('\u{00DC}', 0xDC), ('\u{00DD}', 0xDD), ('\u{00DF}', 0xDF), 
    ('\u{00E1}', 0xE1), ('\u{00E2}', 0xE2), ('\u{00E4}', 0xE4), ('\u{00E7}', 0xE7), 
    ('\u{00E9}', 0xE9), ('\u{00EB}', 0xEB), ('\u{00ED}', 0xED), ('\u{00EE}', 0xEE), 
    ('\u{00F3}', 0xF3), ('\u{00F4}', 0xF4), ('\u{00F6}', 0xF6), ('\u{00F7}', 0xF7), 
    ('\u{00FA}', 0xFA), ('\u{00FC}', 0xFC), ('\u{00FD}', 0xFD), ('\u{0102}', 0xC3), 
    ('\u{0103}', 0xE3), ('\u{0104}', 0xA1), ('\u{0105}', 0xB1), ('\u{0106}', 0xC6), 
    ('\u{0107}', 0xE6), ('\u{010C}', 0xC8), ('\u{010D}', 0xE8), ('\u{010E}', 0xCF), 
    ('\u{010F}', 0xEF), ('\u{0110}', 0xD0), ('\u{0111}', 0xF0), ('\u{0118}', 0xCA), 
    ('\u{0119}', 0xEA), ('\u{011A}', 0xCC), ('\u{011B}', 0xEC), ('\u{0139}', 0xC5), 
    ('\u{013A}', 0xE5), ('\u{013D}', 0xA5), ('\u{013E}', 0xB5), ('\u{0141}', 0xA3), 
    ('\u{0142}', 0xB3), ('\u{0143}', 0xD1), ('\u{0144}', 0xF1), ('\u{0147}', 0xD2), 
    ('\u{0148}', 0xF2), ('\u{0150}', 0xD5), ('\u{0151}', 0xF5), ('\u{0154}', 0xC0), 
    ('\u{0155}', 0xE0), ('\u{0158}', 0xD8), ('\u{0159}', 0xF8), ('\u{015A}', 0xA6), 
    ('\u{015B}', 0xB6), ('\u{015E}', 0xAA), ('\u{015F}', 0xBA), ('\u{0160}', 0xA9), 
    ('\u{0161}', 0xB9), ('\u{0162}', 0xDE), ('\u{0163}', 0xFE), ('\u{0164}', 0xAB), 
    ('\u{0165}', 0xBB), ('\u{016E}', 0xD9), ('\u{016F}', 0xF9), ('\u{0170}', 0xDB), 
    ('\u{0171}', 0xFB), ('\u{0179}', 0xAC), ('\u{017A}', 0xBC), ('\u{017B}', 0xAF), 
    ('\u{017C}', 0xBF), ('\u{017D}', 0xAE), ('\u{017E}', 0xBE), ('\u{02C7}', 0xB7), 
    ('\u{02D8}', 0xA2), ('\u{02D9}', 0xFF), ('\u{02DB}', 0xB2), ('\u{02DD}', 0xBD), 
];
"#

/-- encoding_tables/single_byte/ascii_ext/iso-8859-3.txt:1-285 -/
noncomputable def iso_8859_3_mapping : List Text := lines! r#"# 8859-3.TXT
# Date: 2015-12-02 21:39:00 GMT [KW]
# © 2015 Unicode®, Inc.
# For terms of use, see http://www.unicode.org/terms_of_use.html
#
#	Name:             ISO/IEC 8859-3:1999 to Unicode
#	Unicode version:  3.0
#	Table version:    2.0
#	Table format:     Format A
#	Date:             1999 July 27 (header updated: 2015 December 02)
#	Authors:          Ken Whistler <ken@unicode.org>
#
#	General notes:
#
#	This table contains the data the Unicode Consortium has on how
#       ISO/IEC 8859-3:1999 characters map into Unicode.
#
#	Format:  Three tab-separated columns
#		 Column #1 is the ISO/IEC 8859-3 code (in hex as 0xXX)
#		 Column #2 is the Unicode (in hex as 0xXXXX)
#		 Column #3 the Unicode name (follows a comment sign, '#')
#
#	The entries are in ISO/IEC 8859-3 order.
#
#	Version history
#   1.0 version: updates 0.1 version by adding mappings for all
#       control characters.
#   2.0 version: updates to copyright notice and terms of use; no
#       changes to character mappings
#
#	Updated versions of this file may be found in:
#		http://www.unicode.org/Public/MAPPINGS/
#
#	Any comments or problems, contact us at:
#       http://www.unicode.org/reporting.html
#
0x00	0x0000	#	NULL
0x01	0x0001	#	START OF HEADING
0x02	0x0002	#	START OF TEXT
0x03	0x0003	#	END OF TEXT
0x04	0x0004	#	END OF TRANSMISSION
0x05	0x0005	#	ENQUIRY
0x06	0x0006	#	ACKNOWLEDGE
0x07	0x0007	#	BELL
0x08	0x0008	#	BACKSPACE
0x09	0x0009	#	HORIZONTAL TABULATION
0x0A	0x000A	#	LINE FEED
0x0B	0x000B	#	VERTICAL TABULATION
0x0C	0x000C	#	FORM FEED
0x0D	0x000D	#	CARRIAGE RETURN
0x0E	0x000E	#	SHIFT OUT
0x0F	0x000F	#	SHIFT IN
0x10	0x0010	#	DATA LINK ESCAPE
0x11	0x0011	#	DEVICE CONTROL ONE
0x12	0x0012	#	DEVICE CONTROL TWO
0x13	0x0013	#	DEVICE CONTROL THREE
0x14	0x0014	#	DEVICE CONTROL FOUR
0x15	0x0015	#	NEGATIVE ACKNOWLEDGE
0x16	0x0016	#	SYNCHRONOUS IDLE
0x17	0x0017	#	END OF TRANSMISSION BLOCK
0x18	0x0018	#	CANCEL
0x19	0x0019	#	END OF MEDIUM
0x1A	0x001A	#	SUBSTITUTE
0x1B	0x001B	#	ESCAPE
0x1C	0x001C	#	FILE SEPARATOR
0x1D	0x001D	#	GROUP SEPARATOR
0x1E	0x001E	#	RECORD SEPARATOR
0x1F	0x001F	#	UNIT SEPARATOR
0x20	0x0020	#	SPACE
0x21	0x0021	#	EXCLAMATION MARK
0x22	0x0022	#	QUOTATION MARK
0x23	0x0023	#	NUMBER SIGN
0x24	0x0024	#	DOLLAR SIGN
0x25	0x0025	#	PERCENT SIGN
0x26	0x0026	#	AMPERSAND
0x27	0x0027	#	APOSTROPHE
0x28	0x0028	#	LEFT PARENTHESIS
0x29	0x0029	#	RIGHT PARENTHESIS
0x2A	0x002A	#	ASTERISK
0x2B	0x002B	#	PLUS SIGN
0x2C	0x002C	#	COMMA
0x2D	0x002D	#	HYPHEN-MINUS
0x2E	0x002E	#	FULL STOP
0x2F	0x002F	#	SOLIDUS
0x30	0x0030	#	DIGIT ZERO
0x31	0x0031	#	DIGIT ONE
0x32	0x0032	#	DIGIT TWO
0x33	0x0033	#	DIGIT THREE
0x34	0x0034	#	DIGIT FOUR
0x35	0x0035	#	DIGIT FIVE
0x36	0x0036	#	DIGIT SIX
0x37	0x0037	#	DIGIT SEVEN
0x38	0x0038	#	DIGIT EIGHT
0x39	0x0039	#	DIGIT NINE
0x3A	0x003A	#	COLON
0x3B	0x003B	#	SEMICOLON
0x3C	0x003C	#	LESS-THAN SIGN
0x3D	0x003D	#	EQUALS SIGN
0x3E	0x003E	#	GREATER-THAN SIGN
0x3F	0x003F	#	QUESTION MARK
0x40	0x0040	#	COMMERCIAL AT
0x41	0x0041	#	LATIN CAPITAL LETTER A
0x42	0x0042	#	LATIN CAPITAL LETTER B
0x43	0x0043	#	LATIN CAPITAL LETTER C
0x44	0x0044	#	LATIN CAPITAL LETTER D
0x45	0x0045	#	LATIN CAPITAL LETTER E
0x46	0x0046	#	LATIN CAPITAL LETTER F
0x47	0x0047	#	LATIN CAPITAL LETTER G
0x48	0x0048	#	LATIN CAPITAL LETTER H
0x49	0x0049	#	LATIN CAPITAL LETTER I
0x4A	0x004A	#	LATIN CAPITAL LETTER J
0x4B	0x004B	#	LATIN CAPITAL LETTER K
0x4C	0x004C	#	LATIN CAPITAL LETTER L
0x4D	0x004D	#	LATIN CAPITAL LETTER M
0x4E	0x004E	#	LATIN CAPITAL LETTER N
0x4F	0x004F	#	LATIN CAPITAL LETTER O
0x50	0x0050	#	LATIN CAPITAL LETTER P
0x51	0x0051	#	LATIN CAPITAL LETTER Q
0x52	0x0052	#	LATIN CAPITAL LETTER R
0x53	0x0053	#	LATIN CAPITAL LETTER S
0x54	0x0054	#	LATIN CAPITAL LETTER T
0x55	0x0055	#	LATIN CAPITAL LETTER U
0x56	0x0056	#	LATIN CAPITAL LETTER V
0x57	0x0057	#	LATIN CAPITAL LETTER W
0x58	0x0058	#	LATIN CAPITAL LETTER X
0x59	0x0059	#	LATIN CAPITAL LETTER Y
0x5A	0x005A	#	LATIN CAPITAL LETTER Z
0x5B	0x005B	#	LEFT SQUARE BRACKET
0x5C	0x005C	#	REVERSE SOLIDUS
0x5D	0x005D	#	RIGHT SQUARE BRACKET
0x5E	0x005E	#	CIRCUMFLEX ACCENT
0x5F	0x005F	#	LOW LINE
0x60	0x0060	#	GRAVE ACCENT
0x61	0x0061	#	LATIN SMALL LETTER A
0x62	0x0062	#	LATIN SMALL LETTER B
0x63	0x0063	#	LATIN SMALL LETTER C
0x64	0x0064	#	LATIN SMALL LETTER D
0x65	0x0065	#	LATIN SMALL LETTER E
0x66	0x0066	#	LATIN SMALL LETTER F
0x67	0x0067	#	LATIN SMALL LETTER G
0x68	0x0068	#	LATIN SMALL LETTER H
0x69	0x0069	#	LATIN SMALL LETTER I
0x6A	0x006A	#	LATIN SMALL LETTER J
0x6B	0x006B	#	LATIN SMALL LETTER K
0x6C	0x006C	#	LATIN SMALL LETTER L
0x6D	0x006D	#	LATIN SMALL LETTER M
0x6E	0x006E	#	LATIN SMALL LETTER N
0x6F	0x006F	#	LATIN SMALL LETTER O
0x70	0x0070	#	LATIN SMALL LETTER P
0x71	0x0071	#	LATIN SMALL LETTER Q
0x72	0x0072	#	LATIN SMALL LETTER R
0x73	0x0073	#	LATIN SMALL LETTER S
0x74	0x0074	#	LATIN SMALL LETTER T
0x75	0x0075	#	LATIN SMALL LETTER U
0x76	0x0076	#	LATIN SMALL LETTER V
0x77	0x0077	#	LATIN SMALL LETTER W
0x78	0x0078	#	LATIN SMALL LETTER X
0x79	0x0079	#	LATIN SMALL LETTER Y
0x7A	0x007A	#	LATIN SMALL LETTER Z
0x7B	0x007B	#	LEFT CURLY BRACKET
0x7C	0x007C	#	VERTICAL LINE
0x7D	0x007D	#	RIGHT CURLY BRACKET
0x7E	0x007E	#	TILDE
0x7F	0x007F	#	DELETE
0x80	0x0080	#	<control>
0x81	0x0081	#	<control>
0x82	0x0082	#	<control>
0x83	0x0083	#	<control>
0x84	0x0084	#	<control>
0x85	0x0085	#	<control>
0x86	0x0086	#	<control>
0x87	0x0087	#	<control>
0x88	0x0088	#	<control>
0x89	0x0089	#	<control>
0x8A	0x008A	#	<control>
0x8B	0x008B	#	<control>
0x8C	0x008C	#	<control>
0x8D	0x008D	#	<control>
0x8E	0x008E	#	<control>
0x8F	0x008F	#	<control>
0x90	0x0090	#	<control>
0x91	0x0091	#	<control>
0x92	0x0092	#	<control>
0x93	0x0093	#	<control>
0x94	0x0094	#	<control>
0x95	0x0095	#	<control>
0x96	0x0096	#	<control>
0x97	0x0097	#	<control>
0x98	0x0098	#	<control>
0x99	0x0099	#	<control>
0x9A	0x009A	#	<control>
0x9B	0x009B	#	<control>
0x9C	0x009C	#	<control>
0x9D	0x009D	#	<control>
0x9E	0x009E	#	<control>
0x9F	0x009F	#	<control>
0xA0	0x00A0	#	NO-BREAK SPACE
0xA1	0x0126	#	LATIN CAPITAL LETTER H WITH STROKE
0xA2	0x02D8	#	BREVE
0xA3	0x00A3	#	POUND SIGN
0xA4	0x00A4	#	CURRENCY SIGN
0xA6	0x0124	#	LATIN CAPITAL LETTER H WITH CIRCUMFLEX
0xA7	0x00A7	#	SECTION SIGN
0xA8	0x00A8	#	DIAERESIS
0xA9	0x0130	#	LATIN CAPITAL LETTER I WITH DOT ABOVE
0xAA	0x015E	#	LATIN CAPITAL LETTER S WITH CEDILLA
0xAB	0x011E	#	LATIN CAPITAL LETTER G WITH BREVE
0xAC	0x0134	#	LATIN CAPITAL LETTER J WITH CIRCUMFLEX
0xAD	0x00AD	#	SOFT HYPHEN
0xAF	0x017B	#	LATIN CAPITAL LETTER Z WITH DOT ABOVE
0xB0	0x00B0	#	DEGREE SIGN
0xB1	0x0127	#	LATIN SMALL LETTER H WITH STROKE
0xB2	0x00B2	#	SUPERSCRIPT TWO
0xB3	0x00B3	#	SUPERSCRIPT THREE
0xB4	0x00B4	#	ACUTE ACCENT
0xB5	0x00B5	#	MICRO SIGN
0xB6	0x0125	#	LATIN SMALL LETTER H WITH CIRCUMFLEX
0xB7	0x00B7	#	MIDDLE DOT
0xB8	0x00B8	#	CEDILLA
0xB9	0x0131	#	LATIN SMALL LETTER DOTLESS I
0xBA	0x015F	#	LATIN SMALL LETTER S WITH CEDILLA
0xBB	0x011F	#	LATIN SMALL LETTER G WITH BREVE
0xBC	0x0135	#	LATIN SMALL LETTER J WITH CIRCUMFLEX
0xBD	0x00BD	#	VULGAR FRACTION ONE HALF
0xBF	0x017C	#	LATIN SMALL LETTER Z WITH DOT ABOVE
0xC0	0x00C0	#	LATIN CAPITAL LETTER A WITH GRAVE
0xC1	0x00C1	#	LATIN CAPITAL LETTER A WITH ACUTE
0xC2	0x00C2	#	LATIN CAPITAL LETTER A WITH CIRCUMFLEX
0xC4	0x00C4	#	LATIN CAPITAL LETTER A WITH DIAERESIS
0xC5	0x010A	#	LATIN CAPITAL LETTER C WITH DOT ABOVE
0xC6	0x0108	#	LATIN CAPITAL LETTER C WITH CIRCUMFLEX
0xC7	0x00C7	#	LATIN CAPITAL LETTER C WITH CEDILLA
0xC8	0x00C8	#	LATIN CAPITAL LETTER E WITH GRAVE
0xC9	0x00C9	#	LATIN CAPITAL LETTER E WITH ACUTE
0xCA	0x00CA	#	LATIN CAPITAL LETTER E WITH CIRCUMFLEX
0xCB	0x00CB	#	LATIN CAPITAL LETTER E WITH DIAERESIS
0xCC	0x00CC	#	LATIN CAPITAL LETTER I WITH GRAVE
0xCD	0x00CD	#	LATIN CAPITAL LETTER I WITH ACUTE
0xCE	0x00CE	#	LATIN CAPITAL LETTER I WITH CIRCUMFLEX
0xCF	0x00CF	#	LATIN CAPITAL LETTER I WITH DIAERESIS
0xD1	0x00D1	#	LATIN CAPITAL LETTER N WITH TILDE
0xD2	0x00D2	#	LATIN CAPITAL LETTER O WITH GRAVE
0xD3	0x00D3	#	LATIN CAPITAL LETTER O WITH ACUTE
0xD4	0x00D4	#	LATIN CAPITAL LETTER O WITH CIRCUMFLEX
0xD5	0x0120	#	LATIN CAPITAL LETTER G WITH DOT ABOVE
0xD6	0x00D6	#	LATIN CAPITAL LETTER O WITH DIAERESIS
0xD7	0x00D7	#	MULTIPLICATION SIGN
0xD8	0x011C	#	LATIN CAPITAL LETTER G WITH CIRCUMFLEX
0xD9	0x00D9	#	LATIN CAPITAL LETTER U WITH GRAVE
0xDA	0x00DA	#	LATIN CAPITAL LETTER U WITH ACUTE
0xDB	0x00DB	#	LATIN CAPITAL LETTER U WITH CIRCUMFLEX
0xDC	0x00DC	#	LATIN CAPITAL LETTER U WITH DIAERESIS
0xDD	0x016C	#	LATIN CAPITAL LETTER U WITH BREVE
0xDE	0x015C	#	LATIN CAPITAL LETTER S WITH CIRCUMFLEX
0xDF	0x00DF	#	LATIN SMALL LETTER SHARP S
0xE0	0x00E0	#	LATIN SMALL LETTER A WITH GRAVE
0xE1	0x00E1	#	LATIN SMALL LETTER A WITH ACUTE
0xE2	0x00E2	#	LATIN SMALL LETTER A WITH CIRCUMFLEX
0xE4	0x00E4	#	LATIN SMALL LETTER A WITH DIAERESIS
0xE5	0x010B	#	LATIN SMALL LETTER C WITH DOT ABOVE
0xE6	0x0109	#	LATIN SMALL LETTER C WITH CIRCUMFLEX
0xE7	0x00E7	#	LATIN SMALL LETTER C WITH CEDILLA
0xE8	0x00E8	#	LATIN SMALL LETTER E WITH GRAVE
0xE9	0x00E9	#	LATIN SMALL LETTER E WITH ACUTE
0xEA	0x00EA	#	LATIN SMALL LETTER E WITH CIRCUMFLEX
0xEB	0x00EB	#	LATIN SMALL LETTER E WITH DIAERESIS
0xEC	0x00EC	#	LATIN SMALL LETTER I WITH GRAVE
0xED	0x00ED	#	LATIN SMALL LETTER I WITH ACUTE
0xEE	0x00EE	#	LATIN SMALL LETTER I WITH CIRCUMFLEX
0xEF	0x00EF	#	LATIN SMALL LETTER I WITH DIAERESIS
0xF1	0x00F1	#	LATIN SMALL LETTER N WITH TILDE
0xF2	0x00F2	#	LATIN SMALL LETTER O WITH GRAVE
0xF3	0x00F3	#	LATIN SMALL LETTER O WITH ACUTE
0xF4	0x00F4	#	LATIN SMALL LETTER O WITH CIRCUMFLEX
0xF5	0x0121	#	LATIN SMALL LETTER G WITH DOT ABOVE
0xF6	0x00F6	#	LATIN SMALL LETTER O WITH DIAERESIS
0xF7	0x00F7	#	DIVISION SIGN
0xF8	0x011D	#	LATIN SMALL LETTER G WITH CIRCUMFLEX
0xF9	0x00F9	#	LATIN SMALL LETTER U WITH GRAVE
0xFA	0x00FA	#	LATIN SMALL LETTER U WITH ACUTE
0xFB	0x00FB	#	LATIN SMALL LETTER U WITH CIRCUMFLEX
0xFC	0x00FC	#	LATIN SMALL LETTER U WITH DIAERESIS
0xFD	0x016D	#	LATIN SMALL LETTER U WITH BREVE
0xFE	0x015D	#	LATIN SMALL LETTER S WITH CIRCUMFLEX
0xFF	0x02D9	#	DOT ABOVE
"#

/-- src/generated/single_byte/iso-8859-3_tables.rs.inc:1-71 -/
noncomputable def iso_8859_3_source : List Text := lines! r#"// This file is auto-generated.  Please see `encoding_tables/single_byte/`
// from the root directory for the files that generate this.

use {DecodeResult, EncodeResult};

pub fn decode_to_str<'a>(
    input: &[u8],
    out_buffer: &'a mut [u8],
) -> DecodeResult<'a> {
    super::ascii_ext_decode_to_str(&DECODE_TABLE, input, out_buffer)
}

pub fn encode_from_str<'a>(
    input: &str,
    out_buffer: &'a mut [u8],
) -> EncodeResult<'a> {
    super::ascii_ext_encode_from_str(&ENCODE_TABLE, input, out_buffer)
}

const DECODE_TABLE: [char; 128] = [
    '\u{0080}','\u{0081}','\u{0082}','\u{0083}','\u{0084}','\u{0085}','\u{0086}','\u{0087}',
    '\u{0088}','\u{0089}','\u{008A}','\u{008B}','\u{008C}','\u{008D}','\u{008E}','\u{008F}',
    '\u{0090}','\u{0091}','\u{0092}','\u{0093}','\u{0094}','\u{0095}','\u{0096}','\u{0097}',
    '\u{0098}','\u{0099}','\u{009A}','\u{009B}','\u{009C}','\u{009D}','\u{009E}','\u{009F}',
    '\u{00A0}','\u{0126}','\u{02D8}','\u{00A3}','\u{00A4}','�','\u{0124}','\u{00A7}',
    '\u{00A8}','\u{0130}','\u{015E}','\u{011E}','\u{0134}','\u{00AD}','�','\u{017B}',
    '\u{00B0}','\u{0127}','\u{00B2}','\u{00B3}','\u{00B4}','\u{00B5}','\u{0125}','\u{00B7}',
    '\u{00B8}','\u{0131}','\u{015F}','\u{011F}','\u{0135}','\u{00BD}','�','\u{017C}',
    '\u{00C0}','\u{00C1}','\u{00C2}','�','\u{00C4}','\u{010A}','\u{0108}','\u{00C7}',
    '\u{00C8}','\u{00C9}','\u{00CA}','\u{00CB}','\u{00CC}','\u{00CD}','\u{00CE}','\u{00CF}',
    '�','\u{00D1}','\u{00D2}','\u{00D3}','\u{00D4}','\u{0120}','\u{00D6}','\u{00D7}',
    '\u{011C}','\u{00D9}','\u{00DA}','\u{00DB}','\u{00DC}','\u{016C}','\u{015C}','\u{00DF}',
    '\u{00E0}','\u{00E1}','\u{00E2}','�','\u{00E4}','\u{010B}','\u{0109}','\u{00E7}',
    '\u{00E8}','\u{00E9}','\u{00EA}','\u{00EB}','\u{00EC}','\u{00ED}','\u{00EE}','\u{00EF}',
    '�','\u{00F1}','\u{00F2}','\u{00F3}','\u{00F4}','\u{0121}','\u{00F6}','\u{00F7}',
    '\u{011D}','\u{00F9}','\u{00FA}','\u{00FB}','\u{00FC}','\u{016D}','\u{015D}','\u{02D9}',
];

const ENCODE_TABLE: [(char, u8); 121] = [
    ('\u{0080}', 0x80), ('\u{0081}', 0x81), ('\u{0082}', 0x82), ('\u{0083}', 0x83), 
    ('\u{0084}', 0x84), ('\u{0085}', 0x85), ('\u{0086}', 0x86), ('\u{0087}', 0x87), 
    ('\u{0088}', 0x88), ('\u{0089}', 0x89), ('\u{008A}', 0x8A), ('\u{008B}', 0x8B), 
    ('\u{008C}', 0x8C), ('\u{008D}', 0x8D), ('\u{008E}', 0x8E), ('\u{008F}', 0x8F), 
    ('\u{0090}', 0x90), ('\u{0091}', 0x91), ('\u{0092}', 0x92), ('\u{0093}', 0x93), 
    ('\u{0094}', 0x94), ('\u{0095}', 0x95), ('\u{0096}', 0x96), ('\u{0097}', 0x97), 
    ('\u{0098}', 0x98), ('\u{0099}', 0x99), ('\u{009A}', 0x9A), ('\u{009B}', 0x9B), 
    ('\u{009C}', 0x9C), ('\u{009D}', 0x9D), ('\u{009E}', 0x9E), ('\u{009F}', 0x9F), 
    ('\u{00A0}', 0xA0), ('\u{00A3}', 0xA3), ('\u{00A4}', 0xA4), ('\u{00A7}', 0xA7), 
    ('\u{00A8}', 0xA8), ('\u{00AD}', 0xAD), ('\u{00B0}', 0xB0), ('\u{00B2}', 0xB2), 
    ('\u{00B3}', 0xB3), ('\u{00B4}', 0xB4), ('\u{00B5}', 0xB5), ('\u{00B7}', 0xB7), 
    ('\u{00B8}', 0xB8), ('\u{00BD}', 0xBD), ('\u{00C0}', 0xC0), ('\u{00C1}', 0xC1), 
    ('\u{00C2}', 0xC2), ('\u{00C4}', 0xC4), ('\u{00C7}', 0xC7), ('\u{00C8}', 0xC8), 
    ('\u{00C9}', 0xC9), ('\u{00CA}', 0xCA), ('\u{00CB}', 0xCB), ('\u{00CC}', 0xCC), 
    ('\u{00CD}', 0xCD), ('\u{00CE}', 0xCE), ('\u{00CF}', 0xCF), ('\u{00D1}', 0xD1), 
    ('\u{00D2}', 0xD2), ('\u{00D3}', 0xD3), ('\u{00D4}', 0xD4), ('\u{00D6}', 0xD6), 
    ('\u{00D7}', 0xD7), ('\u{00D9}', 0xD9), ('\u{00DA}', 0xDA), ('\u{00DB}', 0xDB), 
    ('\u{00DC}', 0xDC), ('\u{00DF}', 0xDF), ('\u{00E0}', 0xE0), ('\u{00E1}', 0xE1), 
    ('\u{00E2}', 0xE2), ('\u{00E4}', 0xE4), ('\u{00E7}', 0xE7), ('\u{00E8}', 0xE8), 
    ('\u{00E9}', 0xE9), ('\u{00EA}', 0xEA), ('\u{00EB}', 0xEB), ('\u{00EC}', 0xEC), 
    ('\u{00ED}', 0xED), ('\u{00EE}', 0xEE), ('\u{00EF}', 0xEF), ('\u{00F1}', 0xF1), 
    ('\u{00F2}', 0xF2), ('\u{00F3}', 0xF3), ('\u{00F4}', 0xF4), ('\u{00F6}', 0xF6), 
    ('\u{00F7}', 0xF7), ('\u{00F9}', 0xF9), ('\u{00FA}', 0xFA), ('\u{00FB}', 0xFB), 
    ('\u{00FC}', 0xFC), ('\u{0108}', 0xC6), ('\u{0109}', 0xE6), ('\u{010A}', 0xC5), 
    ('\u{010B}', 0xE5), ('\u{011C}', 0xD8), ('\u{011D}', 0xF8), ('\u{011E}', 0xAB), 
    ('\u{011F}', 0xBB), ('\u{0120}', 0xD5), ('\u{0121}', 0xF5), ('\u{0124}', 0xA6), 
    ('\u{0125}', 0xB6), ('\u{0126}', 0xA1), ('\u{0127}', 0xB1), ('\u{0130}', 0xA9), 
    ('\u{0131}', 0xB9), ('\u{0134}', 0xAC), ('\u{0135}', 0xBC), ('\u{015C}', 0xDE), 
    ('\u{015D}', 0xFE), ('\u{015E}', 0xAA), ('\u{015F}', 0xBA), ('\u{016C}', 0xDD), 
    ('\u{016D}', 0xFD), ('\u{017B}', 0xAF), ('\u{017C}', 0xBF), ('\u{02D8}', 0xA2), 
    ('\u{02D9}', 0xFF), 
];
"#

/-- encoding_tables/single_byte/ascii_ext/iso-8859-4.txt:1-292 -/
noncomputable def iso_8859_4_mapping : List Text := lines! r#"# 8859-4.TXT
# Date: 2015-12-02 21:41:00 GMT [KW]
# © 2015 Unicode®, Inc.
# For terms of use, see http://www.unicode.org/terms_of_use.html
#
#	Name:             ISO/IEC 8859-4:1998 to Unicode
#	Unicode version:  3.0
#	Table version:    2.0
#	Table format:     Format A
#	Date:             1999 July 27 (header updated: 2015 December 02)
#	Authors:          Ken Whistler <ken@unicode.org>
#
#	General notes:
#
#	This table contains the data the Unicode Consortium has on how
#       ISO/IEC 8859-4:1998 characters map into Unicode.
#
#	Format:  Three tab-separated columns
#		 Column #1 is the ISO/IEC 8859-4 code (in hex as 0xXX)
#		 Column #2 is the Unicode (in hex as 0xXXXX)
#		 Column #3 the Unicode name (follows a comment sign, '#')
#
#	The entries are in ISO/IEC 8859-4 order.
#
#	Version history
#   1.0 version: updates 0.1 version by adding mappings for all
#       control characters.
#   2.0 version: updates to copyright notice and terms of use; no
#       changes to character mappings
#
#	Updated versions of this file may be found in:
#		http://www.unicode.org/Public/MAPPINGS/
#
#	Any comments or problems, contact us at:
#       http://www.unicode.org/reporting.html
#
0x00	0x0000	#	NULL
0x01	0x0001	#	START OF HEADING
0x02	0x0002	#	START OF TEXT
0x03	0x0003	#	END OF TEXT
0x04	0x0004	#	END OF TRANSMISSION
0x05	0x0005	#	ENQUIRY
0x06	0x0006	#	ACKNOWLEDGE
0x07	0x0007	#	BELL
0x08	0x0008	#	BACKSPACE
0x09	0x0009	#	HORIZONTAL TABULATION
0x0A	0x000A	#	LINE FEED
0x0B	0x000B	#	VERTICAL TABULATION
0x0C	0x000C	#	FORM FEED
0x0D	0x000D	#	CARRIAGE RETURN
0x0E	0x000E	#	SHIFT OUT
0x0F	0x000F	#	SHIFT IN
0x10	0x0010	#	DATA LINK ESCAPE
0x11	0x0011	#	DEVICE CONTROL ONE
0x12	0x0012	#	DEVICE CONTROL TWO
0x13	0x0013	#	DEVICE CONTROL THREE
0x14	0x0014	#	DEVICE CONTROL FOUR
0x15	0x0015	#	NEGATIVE ACKNOWLEDGE
0x16	0x0016	#	SYNCHRONOUS IDLE
0x17	0x0017	#	END OF TRANSMISSION BLOCK
0x18	0x0018	#	CANCEL
0x19	0x0019	#	END OF MEDIUM
0x1A	0x001A	#	SUBSTITUTE
0x1B	0x001B	#	ESCAPE
0x1C	0x001C	#	FILE SEPARATOR
0x1D	0x001D	#	GROUP SEPARATOR
0x1E	0x001E	#	RECORD SEPARATOR
0x1F	0x001F	#	UNIT SEPARATOR
0x20	0x0020	#	SPACE
0x21	0x0021	#	EXCLAMATION MARK
0x22	0x0022	#	QUOTATION MARK
0x23	0x0023	#	NUMBER SIGN
0x24	0x0024	#	DOLLAR SIGN
0x25	0x0025	#	PERCENT SIGN
0x26	0x0026	#	AMPERSAND
0x27	0x0027	#	APOSTROPHE
0x28	0x0028	#	LEFT PARENTHESIS
0x29	0x0029	#	RIGHT PARENTHESIS
0x2A	0x002A	#	ASTERISK
0x2B	0x002B	#	PLUS SIGN
0x2C	0x002C	#	COMMA
0x2D	0x002D	#	HYPHEN-MINUS
0x2E	0x002E	#	FULL STOP
0x2F	0x002F	#	SOLIDUS
0x30	0x0030	#	DIGIT ZERO
0x31	0x0031	#	DIGIT ONE
0x32	0x0032	#	DIGIT TWO
0x33	0x0033	#	DIGIT THREE
0x34	0x0034	#	DIGIT FOUR
0x35	0x0035	#	DIGIT FIVE
0x36	0x0036	#	DIGIT SIX
0x37	0x0037	#	DIGIT SEVEN
0x38	0x0038	#	DIGIT EIGHT
0x39	0x0039	#	DIGIT NINE
0x3A	0x003A	#	COLON
0x3B	0x003B	#	SEMICOLON
0x3C	0x003C	#	LESS-THAN SIGN
0x3D	0x003D	#	EQUALS SIGN
0x3E	0x003E	#	GREATER-THAN SIGN
0x3F	0x003F	#	QUESTION MARK
0x40	0x0040	#	COMMERCIAL AT
0x41	0x0041	#	LATIN CAPITAL LETTER A
0x42	0x0042	#	LATIN CAPITAL LETTER B
0x43	0x0043	#	LATIN CAPITAL LETTER C
0x44	0x0044	#	LATIN CAPITAL LETTER D
0x45	0x0045	#	LATIN CAPITAL LETTER E
0x46	0x0046	#	LATIN CAPITAL LETTER F
0x47	0x0047	#	LATIN CAPITAL LETTER G
0x48	0x0048	#	LATIN CAPITAL LETTER H
0x49	0x0049	#	LATIN CAPITAL LETTER I
0x4A	0x004A	#	LATIN CAPITAL LETTER J
0x4B	0x004B	#	LATIN CAPITAL LETTER K
0x4C	0x004C	#	LATIN CAPITAL LETTER L
0x4D	0x004D	#	LATIN CAPITAL LETTER M
0x4E	0x004E	#	LATIN CAPITAL LETTER N
0x4F	0x004F	#	LATIN CAPITAL LETTER O
0x50	0x0050	#	LATIN CAPITAL LETTER P
0x51	0x0051	#	LATIN CAPITAL LETTER Q
0x52	0x0052	#	LATIN CAPITAL LETTER R
0x53	0x0053	#	LATIN CAPITAL LETTER S
0x54	0x0054	#	LATIN CAPITAL LETTER T
0x55	0x0055	#	LATIN CAPITAL LETTER U
0x56	0x0056	#	LATIN CAPITAL LETTER V
0x57	0x0057	#	LATIN CAPITAL LETTER W
0x58	0x0058	#	LATIN CAPITAL LETTER X
0x59	0x0059	#	LATIN CAPITAL LETTER Y
0x5A	0x005A	#	LATIN CAPITAL LETTER Z
0x5B	0x005B	#	LEFT SQUARE BRACKET
0x5C	0x005C	#	REVERSE SOLIDUS
0x5D	0x005D	#	RIGHT SQUARE BRACKET
0x5E	0x005E	#	CIRCUMFLEX ACCENT
0x5F	0x005F	#	LOW LINE
0x60	0x0060	#	GRAVE ACCENT
0x61	0x0061	#	LATIN SMALL LETTER A
0x62	0x0062	#	LATIN SMALL LETTER B
0x63	0x0063	#	LATIN SMALL LETTER C
0x64	0x0064	#	LATIN SMALL LETTER D
0x65	0x0065	#	LATIN SMALL LETTER E
0x66	0x0066	#	LATIN SMALL LETTER F
0x67	0x0067	#	LATIN SMALL LETTER G
0x68	0x0068	#	LATIN SMALL LETTER H
0x69	0x0069	#	LATIN SMALL LETTER I
0x6A	0x006A	#	LATIN SMALL LETTER J
0x6B	0x006B	#	LATIN SMALL LETTER K
0x6C	0x006C	#	LATIN SMALL LETTER L
0x6D	0x006D	#	LATIN SMALL LETTER M
0x6E	0x006E	#	LATIN SMALL LETTER N
0x6F	0x006F	#	LATIN SMALL LETTER O
0x70	0x0070	#	LATIN SMALL LETTER P
0x71	0x0071	#	LATIN SMALL LETTER Q
0x72	0x0072	#	LATIN SMALL LETTER R
0x73	0x0073	#	LATIN SMALL LETTER S
0x74	0x0074	#	LATIN SMALL LETTER T
0x75	0x0075	#	LATIN SMALL LETTER U
0x76	0x0076	#	LATIN SMALL LETTER V
0x77	0x0077	#	LATIN SMALL LETTER W
0x78	0x0078	#	LATIN SMALL LETTER X
0x79	0x0079	#	LATIN SMALL LETTER Y
0x7A	0x007A	#	LATIN SMALL LETTER Z
0x7B	0x007B	#	LEFT CURLY BRACKET
0x7C	0x007C	#	VERTICAL LINE
0x7D	0x007D	#	RIGHT CURLY BRACKET
0x7E	0x007E	#	TILDE
0x7F	0x007F	#	DELETE
0x80	0x0080	#	<control>
0x81	0x0081	#	<control>
0x82	0x0082	#	<control>
0x83	0x0083	#	<control>
0x84	0x0084	#	<control>
0x85	0x0085	#	<control>
0x86	0x0086	#	<control>
0x87	0x0087	#	<control>
0x88	0x0088	#	<control>
0x89	0x0089	#	<control>
0x8A	0x008A	#	<control>
0x8B	0x008B	#	<control>
0x8C	0x008C	#	<control>
0x8D	0x008D	#	<control>
0x8E	0x008E	#	<control>
0x8F	0x008F	#	<control>
0x90	0x0090	#	<control>
0x91	0x0091	#	<control>
0x92	0x0092	#	<control>
0x93	0x0093	#	<control>
0x94	0x0094	#	<control>
0x95	0x0095	#	<control>
0x96	0x0096	#	<control>
0x97	0x0097	#	<control>
0x98	0x0098	#	<control>
0x99	0x0099	#	<control>
0x9A	0x009A	#	<control>
0x9B	0x009B	#	<control>
0x9C	0x009C	#	<control>
0x9D	0x009D	#	<control>
0x9E	0x009E	#	<control>
0x9F	0x009F	#	<control>
0xA0	0x00A0	#	NO-BREAK SPACE
0xA1	0x0104	#	LATIN CAPITAL LETTER A WITH OGONEK
0xA2	0x0138	#	LATIN SMALL LETTER KRA
0xA3	0x0156	#	LATIN CAPITAL LETTER R WITH CEDILLA
0xA4	0x00A4	#	CURRENCY SIGN
0xA5	0x0128	#	LATIN CAPITAL LETTER I WITH TILDE
0xA6	0x013B	#	LATIN CAPITAL LETTER L WITH CEDILLA
0xA7	0x00A7	#	SECTION SIGN
0xA8	0x00A8	#	DIAERESIS
0xA9	0x0160	#	LATIN CAPITAL LETTER S WITH CARON
0xAA	0x0112	#	LATIN CAPITAL LETTER E WITH MACRON
0xAB	0x0122	#	LATIN CAPITAL LETTER G WITH CEDILLA
0xAC	0x0166	#	LATIN CAPITAL LETTER T WITH STROKE
0xAD	0x00AD	#	SOFT HYPHEN
0xAE	0x017D	#	LATIN CAPITAL LETTER Z WITH CARON
0xAF	0x00AF	#	MACRON
0xB0	0x00B0	#	DEGREE SIGN
0xB1	0x0105	#	LATIN SMALL LETTER A WITH OGONEK
0xB2	0x02DB	#	OGONEK
0xB3	0x0157	#	LATIN SMALL LETTER R WITH CEDILLA
0xB4	0x00B4	#	ACUTE ACCENT
0xB5	0x0129	#	LATIN SMALL LETTER I WITH TILDE
0xB6	0x013C	#	LATIN SMALL LETTER L WITH CEDILLA
0xB7	0x02C7	#	CARON
0xB8	0x00B8	#	CEDILLA
0xB9	0x0161	#	LATIN SMALL LETTER S WITH CARON
0xBA	0x0113	#	LATIN SMALL LETTER E WITH MACRON
0xBB	0x0123	#	LATIN SMALL LETTER G WITH CEDILLA
0xBC	0x0167	#	LATIN SMALL LETTER T WITH STROKE
0xBD	0x014A	#	LATIN CAPITAL LETTER ENG
0xBE	0x017E	#	LATIN SMALL LETTER Z WITH CARON
0xBF	0x014B	#	LATIN SMALL LETTER ENG
0xC0	0x0100	#	LATIN CAPITAL LETTER A WITH MACRON
0xC1	0x00C1	#	LATIN CAPITAL LETTER A WITH ACUTE
0xC2	0x00C2	#	LATIN CAPITAL LETTER A WITH CIRCUMFLEX
0xC3	0x00C3	#	LATIN CAPITAL LETTER A WITH TILDE
0xC4	0x00C4	#	LATIN CAPITAL LETTER A WITH DIAERESIS
0xC5	0x00C5	#	LATIN CAPITAL LETTER A WITH RING ABOVE
0xC6	0x00C6	#	LATIN CAPITAL LETTER AE
0xC7	0x012E	#	LATIN CAPITAL LETTER I WITH OGONEK
0xC8	0x010C	#	LATIN CAPITAL LETTER C WITH CARON
0xC9	0x00C9	#	LATIN CAPITAL LETTER E WITH ACUTE
0xCA	0x0118	#	LATIN CAPITAL LETTER E WITH OGONEK
0xCB	0x00CB	#	LATIN CAPITAL LETTER E WITH DIAERESIS
0xCC	0x0116	#	LATIN CAPITAL LETTER E WITH DOT ABOVE
0xCD	0x00CD	#	LATIN CAPITAL LETTER I WITH ACUTE
0xCE	0x00CE	#	LATIN CAPITAL LETTER I WITH CIRCUMFLEX
0xCF	0x012A	#	LATIN CAPITAL LETTER I WITH MACRON
0xD0	0x0110	#	LATIN CAPITAL LETTER D WITH STROKE
0xD1	0x0145	#	LATIN CAPITAL LETTER N WITH CEDILLA
0xD2	0x014C	#	LATIN CAPITAL LETTER O WITH MACRON
0xD3	0x0136	#	LATIN CAPITAL LETTER K WITH CEDILLA
0xD4	0x00D4	#	LATIN CAPITAL LETTER O WITH CIRCUMFLEX
0xD5	0x00D5	#	LATIN CAPITAL LETTER O WITH TILDE
0xD6	0x00D6	#	LATIN CAPITAL LETTER O WITH DIAERESIS
0xD7	0x00D7	#	MULTIPLICATION SIGN
0xD8	0x00D8	#	LATIN CAPITAL LETTER O WITH STROKE
0xD9	0x0172	#	LATIN CAPITAL LETTER U WITH OGONEK
0xDA	0x00DA	#	LATIN CAPITAL LETTER U WITH ACUTE
0xDB	0x00DB	#	LATIN CAPITAL LETTER U WITH CIRCUMFLEX
0xDC	0x00DC	#	LATIN CAPITAL LETTER U WITH DIAERESIS
0xDD	0x0168	#	LATIN CAPITAL LETTER U WITH TILDE
0xDE	0x016A	#	LATIN CAPITAL LETTER U WITH MACRON
0xDF	0x00DF	#	LATIN SMALL LETTER SHARP S
0xE0	0x0101	#	LATIN SMALL LETTER A WITH MACRON
0xE1	0x00E1	#	LATIN SMALL LETTER A WITH ACUTE
0xE2	0x00E2	#	LATIN SMALL LETTER A WITH CIRCUMFLEX
0xE3	0x00E3	#	LATIN SMALL LETTER A WITH TILDE
0xE4	0x00E4	#	LATIN SMALL LETTER A WITH DIAERESIS
0xE5	0x00E5	#	LATIN SMALL LETTER A WITH RING ABOVE
0xE6	0x00E6	#	LATIN SMALL LETTER AE
0xE7	0x012F	#	LATIN SMALL LETTER I WITH OGONEK
0xE8	0x010D	#	LATIN SMALL LETTER C WITH CARON
0xE9	0x00E9	#	LATIN SMALL LETTER E WITH ACUTE
0xEA	0x0119	#	LATIN SMALL LETTER E WITH OGONEK
0xEB	0x00EB	#	LATIN SMALL LETTER E WITH DIAERESIS
0xEC	0x0117	#	LATIN SMALL LETTER E WITH DOT ABOVE
0xED	0x00ED	#	LATIN SMALL LETTER I WITH ACUTE
0xEE	0x00EE	#	LATIN SMALL LETTER I WITH CIRCUMFLEX
0xEF	0x012B	#	LATIN SMALL LETTER I WITH MACRON
0xF0	0x0111	#	LATIN SMALL LETTER D WITH STROKE
0xF1	0x0146	#	LATIN SMALL LETTER N WITH CEDILLA
0xF2	0x014D	#	LATIN SMALL LETTER O WITH MACRON
0xF3	0x0137	#	LATIN SMALL LETTER K WITH CEDILLA
0xF4	0x00F4	#	LATIN SMALL LETTER O WITH CIRCUMFLEX
0xF5	0x00F5	#	LATIN SMALL LETTER O WITH TILDE
0xF6	0x00F6	#	LATIN SMALL LETTER O WITH DIAERESIS
0xF7	0x00F7	#	DIVISION SIGN
0xF8	0x00F8	#	LATIN SMALL LETTER O WITH STROKE
0xF9	0x0173	#	LATIN SMALL LETTER U WITH OGONEK
0xFA	0x00FA	#	LATIN SMALL LETTER U WITH ACUTE
0xFB	0x00FB	#	LATIN SMALL LETTER U WITH CIRCUMFLEX
0xFC	0x00FC	#	LATIN SMALL LETTER U WITH DIAERESIS
0xFD	0x0169	#	LATIN SMALL LETTER U WITH TILDE
0xFE	0x016B	#	LATIN SMALL LETTER U WITH MACRON
0xFF	0x02D9	#	DOT ABOVE
"#

/-- src/generated/single_byte/iso-8859-4_tables.rs.inc:1-72 -/
noncomputable def iso_8859_4_source : List Text := lines! r#"// This file is auto-generated.  Please see `encoding_tables/single_byte/`
// from the root directory for the files that generate this.

use {DecodeResult, EncodeResult};

pub fn decode_to_str<'a>(
    input: &[u8],
    out_buffer: &'a mut [u8],
) -> DecodeResult<'a> {
    super::ascii_ext_decode_to_str(&DECODE_TABLE, input, out_buffer)
}

pub fn encode_from_str<'a>(
    input: &str,
    out_buffer: &'a mut [u8],
) -> EncodeResult<'a> {
    super::ascii_ext_encode_from_str(&ENCODE_TABLE, input, out_buffer)
}

const DECODE_TABLE: [char; 128] = [
    '\u{0080}','\u{0081}','\u{0082}','\u{0083}','\u{0084}','\u{0085}','\u{0086}','\u{0087}',
    '\u{0088}','\u{0089}','\u{008A}','\u{008B}','\u{008C}','\u{008D}','\u{008E}','\u{008F}',
    '\u{0090}','\u{0091}','\u{0092}','\u{0093}','\u{0094}','\u{0095}','\u{0096}','\u{0097}',
    '\u{0098}','\u{0099}','\u{009A}','\u{009B}','\u{009C}','\u{009D}','\u{009E}','\u{009F}',
    '\u{00A0}','\u{0104}','\u{0138}','\u{0156}','\u{00A4}','\u{0128}','\u{013B}','\u{00A7}',
    '\u{00A8}','\u{0160}','\u{0112}','\u{0122}','\u{0166}','\u{00AD}','\u{017D}','\u{00AF}',
    '\u{00B0}','\u{0105}','\u{02DB}','\u{0157}','\u{00B4}','\u{0129}','\u{013C}','\u{02C7}',
    '\u{00B8}','\u{0161}','\u{0113}','\u{0123}','\u{0167}','\u{014A}','\u{017E}','\u{014B}',
    '\u{0100}','\u{00C1}','\u{00C2}','\u{00C3}','\u{00C4}','\u{00C5}','\u{00C6}','\u{012E}',
    '\u{010C}','\u{00C9}','\u{0118}','\u{00CB}','\u{0116}','\u{00CD}','\u{00CE}','\u{012A}',
    '\u{0110}','\u{0145}','\u{014C}','\u{0136}','\u{00D4}','\u{00D5}','\u{00D6}','\u{00D7}',
    '\u{00D8}','\u{0172}','\u{00DA}','\u{00DB}','\u{00DC}','\u{0168}','\u{016A}','\u{00DF}',
    '\u{0101}','\u{00E1}','\u{00E2}','\u{00E3}','\u{00E4}','\u{00E5}','\u{00E6}','\u{012F}',
    '\u{010D}','\u{00E9}','\u{0119}','\u{00EB}','\u{0117}','\u{00ED}','\u{00EE}','\u{012B}',
    '\u{0111}','\u{0146}','\u{014D}','\u{0137}','\u{00F4}','\u{00F5}','\u{00F6}','\u{00F7}',
    '\u{00F8}','\u{0173}','\u{00FA}','\u{00FB}','\u{00FC}','\u{0169}','\u{016B}','\u{02D9}',
];

const ENCODE_TABLE: [(char, u8); 128] = [
    ('\u{0080}', 0x80), ('\u{0081}', 0x81), ('\u{0082}', 0x82), ('\u{0083}', 0x83), 
    ('\u{0084}', 0x84), ('\u{0085}', 0x85), ('\u{0086}', 0x86), ('\u{0087}', 0x87), 
    ('\u{0088}', 0x88), ('\u{0089}', 0x89), ('\u{008A}', 0x8A), ('\u{008B}', 0x8B), 
    ('\u{008C}', 0x8C), ('\u{008D}', 0x8D), ('\u{008E}', 0x8E), ('\u{008F}', 0x8F), 
    ('\u{0090}', 0x90), ('\u{0091}', 0x91), ('\u{0092}', 0x92), ('\u{0093}', 0x93), 
    ('\u{0094}', 0x94), ('\u{0095}', 0x95), ('\u{0096}', 0x96), ('\u{0097}', 0x97), 
    ('\u{0098}', 0x98), ('\u{0099}', 0x99), ('\u{009A}', 0x9A), ('\u{009B}', 0x9B), 
    ('\u{009C}', 0x9C), ('\u{009D}', 0x9D), ('\u{009E}', 0x9E), ('\u{009F}', 0x9F), 
    ('\u{00A0}', 0xA0), ('\u{00A4}', 0xA4), ('\u{00A7}', 0xA7), ('\u{00A8}', 0xA8), 
    ('\u{00AD}', 0xAD), ('\u{00AF}', 0xAF), ('\u{00B0}', 0xB0), ('\u{00B4}', 0xB4), 
    ('\u{00B8}', 0xB8), ('\u{00C1}', 0xC1), ('\u{00C2}', 0xC2), ('\u{00C3}', 0xC3), 
    ('\u{00C4}', 0xC4), ('\u{00C5}', 0xC5), ('\u{00C6}', 0xC6), ('\u{00C9}', 0xC9), 
    ('\u{00CB}', 0xCB), ('\u{00CD}', 0xCD), ('\u{00CE}', 0xCE), ('\u{00D4}', 0xD4), 
    ('\u{00D5}', 0xD5), ('\u{00D6}', 0xD6), ('\u{00D7}', 0xD7), ('\u{00D8}', 0xD8), 
    ('\u{00DA}', 0xDA), ('\u{00DB}', 0xDB), ('\u{00DC}', 0xDC), ('\u{00DF}', 0xDF), 
    ('\u{00E1}', 0xE1), ('\u{00E2}', 0xE2), ('\u{00E3}', 0xE3), ('\u{00E4}', 0xE4), 
    ('\u{00E5}', 0xE5), ('\u{00E6}', 0xE6), ('\u{00E9}', 0xE9), ('\u{00EB}', 0xEB), 
    ('\u{00ED}', 0xED), ('\u{00EE}', 0xEE), ('\u{00F4}', 0xF4), ('\u{00F5}', 0xF5), 
    ('\u{00F6}', 0xF6), ('\u{00F7}', 0xF7), ('\u{00F8}', 0xF8), ('\u{00FA}', 0xFA), 
    ('\u{00FB}', 0xFB), ('\u{00FC}', 0xFC), ('\u{0100}', 0xC0), ('\u{0101}', 0xE0), 
    ('\u{0104}', 0xA1), ('\u{0105}', 0xB1), ('\u{010C}', 0xC8), ('\u{010D}', 0xE8), 
    ('\u{0110}', 0xD0), ('\u{0111}', 0xF0), ('\u{0112}', 0xAA), ('\u{0113}', 0xBA), 
    ('\u{0116}', 0xCC), ('\u{0117}', 0xEC), ('\u{0118}', 0xCA), ('\u{0119}', 0xEA), 
    ('\u{0122}', 0xAB), ('\u{0123}', 0xBB), ('\u{0128}', 0xA5), ('\u{0129}', 0xB5), 
    ('\u{012A}', 0xCF), ('\u{012B}', 0xEF), ('\u{012E}', 0xC7), ('\u{012F}', 0xE7), 
    ('\u{0136}', 0xD3), ('\u{0137}', 0xF3), ('\u{0138}', 0xA2), ('\u{013B}', 0xA6), 
    ('\u{013C}', 0xB6), ('\u{0145}', 0xD1), ('\u{0146}', 0xF1), ('\u{014A}', 0xBD), 
    ('\u{014B}', 0xBF), ('\u{014C}', 0xD2), ('\u{014D}', 0xF2), ('\u{0156}', 0xA3), 
    ('\u{0157}', 0xB3), ('\u{0160}', 0xA9), ('\u{0161}', 0xB9), ('\u{0166}', 0xAC), 
    ('\u{0167}', 0xBC), ('\u{0168}', 0xDD), ('\u{0169}', 0xFD), ('\u{016A}', 0xDE), 
    ('\u{016B}', 0xFE), ('\u{0172}', 0xD9), ('\u{0173}', 0xF9), ('\u{017D}', 0xAE), 
    ('\u{017E}', 0xBE), ('\u{02C7}', 0xB7), ('\u{02D9}', 0xFF), ('\u{02DB}', 0xB2), 
];
"#

/-- encoding_tables/single_byte/ascii_ext/iso-8859-5.txt:1-292 -/
noncomputable def iso_8859_5_mapping : List Text := lines! r#"# 8859-5.TXT
# Date: 2015-12-02 21:43:00 GMT [KW]
# © 2015 Unicode®, Inc.
# For terms of use, see http://www.unicode.org/terms_of_use.html
#
#	Name:             ISO 8859-5:1999 to Unicode
#	Unicode version:  3.0
#	Table version:    2.0
#	Table format:     Format A
#	Date:             1999 July 27 (header updated: 2015 December 02)
#	Authors:          Ken Whistler <ken@unicode.org>
#
#	General notes:
#
#	This table contains the data the Unicode Consortium has on how
#       ISO/IEC 8859-5:1999 characters map into Unicode.
#
#	Format:  Three tab-separated columns
#		 Column #1 is the ISO/IEC 8859-5 code (in hex as 0xXX)
#		 Column #2 is the Unicode (in hex as 0xXXXX)
#		 Column #3 the Unicode name (follows a comment sign, '#')
#
#	The entries are in ISO/IEC 8859-5 order.
#
#	Version history
#   1.0 version: updates 0.1 version by adding mappings for all
#       control characters.
#   2.0 version: updates to copyright notice and terms of use; no
#       changes to character mappings
#
#	Updated versions of this file may be found in:
#		http://www.unicode.org/Public/MAPPINGS/
#
#	Any comments or problems, contact us at:
#       http://www.unicode.org/reporting.html
#
0x00	0x0000	#	NULL
0x01	0x0001	#	START OF HEADING
0x02	0x0002	#	START OF TEXT
0x03	0x0003	#	END OF TEXT
0x04	0x0004	#	END OF TRANSMISSION
0x05	0x0005	#	ENQUIRY
0x06	0x0006	#	ACKNOWLEDGE
0x07	0x0007	#	BELL
0x08	0x0008	#	BACKSPACE
0x09	0x0009	#	HORIZONTAL TABULATION
0x0A	0x000A	#	LINE FEED
0x0B	0x000B	#	VERTICAL TABULATION
0x0C	0x000C	#	FORM FEED
0x0D	0x000D	#	CARRIAGE RETURN
0x0E	0x000E	#	SHIFT OUT
0x0F	0x000F	#	SHIFT IN
0x10	0x0010	#	DATA LINK ESCAPE
0x11	0x0011	#	DEVICE CONTROL ONE
0x12	0x0012	#	DEVICE CONTROL TWO
0x13	0x0013	#	DEVICE CONTROL THREE
0x14	0x0014	#	DEVICE CONTROL FOUR
0x15	0x0015	#	NEGATIVE ACKNOWLEDGE
0x16	0x0016	#	SYNCHRONOUS IDLE
0x17	0x0017	#	END OF TRANSMISSION BLOCK
0x18	0x0018	#	CANCEL
0x19	0x0019	#	END OF MEDIUM
0x1A	0x001A	#	SUBSTITUTE
0x1B	0x001B	#	ESCAPE
0x1C	0x001C	#	FILE SEPARATOR
0x1D	0x001D	#	GROUP SEPARATOR
0x1E	0x001E	#	RECORD SEPARATOR
0x1F	0x001F	#	UNIT SEPARATOR
0x20	0x0020	#	SPACE
0x21	0x0021	#	EXCLAMATION MARK
0x22	0x0022	#	QUOTATION MARK
0x23	0x0023	#	NUMBER SIGN
0x24	0x0024	#	DOLLAR SIGN
0x25	0x0025	#	PERCENT SIGN
0x26	0x0026	#	AMPERSAND
0x27	0x0027	#	APOSTROPHE
0x28	0x0028	#	LEFT PARENTHESIS
0x29	0x0029	#	RIGHT PARENTHESIS
0x2A	0x002A	#	ASTERISK
0x2B	0x002B	#	PLUS SIGN
0x2C	0x002C	#	COMMA
0x2D	0x002D	#	HYPHEN-MINUS
0x2E	0x002E	#	FULL STOP
0x2F	0x002F	#	SOLIDUS
0x30	0x0030	#	DIGIT ZERO
0x31	0x0031	#	DIGIT ONE
0x32	0x0032	#	DIGIT TWO
0x33	0x0033	#	DIGIT THREE
0x34	0x0034	#	DIGIT FOUR
0x35	0x0035	#	DIGIT FIVE
0x36	0x0036	#	DIGIT SIX
0x37	0x0037	#	DIGIT SEVEN
0x38	0x0038	#	DIGIT EIGHT
0x39	0x0039	#	DIGIT NINE
0x3A	0x003A	#	COLON
0x3B	0x003B	#	SEMICOLON
0x3C	0x003C	#	LESS-THAN SIGN
0x3D	0x003D	#	EQUALS SIGN
0x3E	0x003E	#	GREATER-THAN SIGN
0x3F	0x003F	#	QUESTION MARK
0x40	0x0040	#	COMMERCIAL AT
0x41	0x0041	#	LATIN CAPITAL LETTER A
0x42	0x0042	#	LATIN CAPITAL LETTER B
0x43	0x0043	#	LATIN CAPITAL LETTER C
0x44	0x0044	#	LATIN CAPITAL LETTER D
0x45	0x0045	#	LATIN CAPITAL LETTER E
0x46	0x0046	#	LATIN CAPITAL LETTER F
0x47	0x0047	#	LATIN CAPITAL LETTER G
0x48	0x0048	#	LATIN CAPITAL LETTER H
0x49	0x0049	#	LATIN CAPITAL LETTER I
0x4A	0x004A	#	LATIN CAPITAL LETTER J
0x4B	0x004B	#	LATIN CAPITAL LETTER K
0x4C	0x004C	#	LATIN CAPITAL LETTER L
0x4D	0x004D	#	LATIN CAPITAL LETTER M
0x4E	0x004E	#	LATIN CAPITAL LETTER N
0x4F	0x004F	#	LATIN CAPITAL LETTER O
0x50	0x0050	#	LATIN CAPITAL LETTER P
0x51	0x0051	#	LATIN CAPITAL LETTER Q
0x52	0x0052	#	LATIN CAPITAL LETTER R
0x53	0x0053	#	LATIN CAPITAL LETTER S
0x54	0x0054	#	LATIN CAPITAL LETTER T
0x55	0x0055	#	LATIN CAPITAL LETTER U
0x56	0x0056	#	LATIN CAPITAL LETTER V
0x57	0x0057	#	LATIN CAPITAL LETTER W
0x58	0x0058	#	LATIN CAPITAL LETTER X
0x59	0x0059	#	LATIN CAPITAL LETTER Y
0x5A	0x005A	#	LATIN CAPITAL LETTER Z
0x5B	0x005B	#	LEFT SQUARE BRACKET
0x5C	0x005C	#	REVERSE SOLIDUS
0x5D	0x005D	#	RIGHT SQUARE BRACKET
0x5E	0x005E	#	CIRCUMFLEX ACCENT
0x5F	0x005F	#	LOW LINE
0x60	0x0060	#	GRAVE ACCENT
0x61	0x0061	#	LATIN SMALL LETTER A
0x62	0x0062	#	LATIN SMALL LETTER B
0x63	0x0063	#	LATIN SMALL LETTER C
0x64	0x0064	#	LATIN SMALL LETTER D
0x65	0x0065	#	LATIN SMALL LETTER E
0x66	0x0066	#	LATIN SMALL LETTER F
0x67	0x0067	#	LATIN SMALL LETTER G
0x68	0x0068	#	LATIN SMALL LETTER H
0x69	0x0069	#	LATIN SMALL LETTER I
0x6A	0x006A	#	LATIN SMALL LETTER J
0x6B	0x006B	#	LATIN SMALL LETTER K
0x6C	0x006C	#	LATIN SMALL LETTER L
0x6D	0x006D	#	LATIN SMALL LETTER M
0x6E	0x006E	#	LATIN SMALL LETTER N
0x6F	0x006F	#	LATIN SMALL LETTER O
0x70	0x0070	#	LATIN SMALL LETTER P
0x71	0x0071	#	LATIN SMALL LETTER Q
0x72	0x0072	#	LATIN SMALL LETTER R
0x73	0x0073	#	LATIN SMALL LETTER S
0x74	0x0074	#	LATIN SMALL LETTER T
0x75	0x0075	#	LATIN SMALL LETTER U
0x76	0x0076	#	LATIN SMALL LETTER V
0x77	0x0077	#	LATIN SMALL LETTER W
0x78	0x0078	#	LATIN SMALL LETTER X
0x79	0x0079	#	LATIN SMALL LETTER Y
0x7A	0x007A	#	LATIN SMALL LETTER Z
0x7B	0x007B	#	LEFT CURLY BRACKET
0x7C	0x007C	#	VERTICAL LINE
0x7D	0x007D	#	RIGHT CURLY BRACKET
0x7E	0x007E	#	TILDE
0x7F	0x007F	#	DELETE
0x80	0x0080	#	<control>
0x81	0x0081	#	<control>
0x82	0x0082	#	<control>
0x83	0x0083	#	<control>
0x84	0x0084	#	<control>
0x85	0x0085	#	<control>
0x86	0x0086	#	<control>
0x87	0x0087	#	<control>
0x88	0x0088	#	<control>
0x89	0x0089	#	<control>
0x8A	0x008A	#	<control>
0x8B	0x008B	#	<control>
0x8C	0x008C	#	<control>
0x8D	0x008D	#	<control>
0x8E	0x008E	#	<control>
0x8F	0x008F	#	<control>
0x90	0x0090	#	<control>
0x91	0x0091	#	<control>
0x92	0x0092	#	<control>
0x93	0x0093	#	<control>
0x94	0x0094	#	<control>
0x95	0x0095	#	<control>
0x96	0x0096	#	<control>
0x97	0x0097	#	<control>
0x98	0x0098	#	<control>
0x99	0x0099	#	<control>
0x9A	0x009A	#	<control>
0x9B	0x009B	#	<control>
0x9C	0x009C	#	<control>
0x9D	0x009D	#	<control>
0x9E	0x009E	#	<control>
0x9F	0x009F	#	<control>
0xA0	0x00A0	#	NO-BREAK SPACE
0xA1	0x0401	#	CYRILLIC CAPITAL LETTER IO
0xA2	0x0402	#	CYRILLIC CAPITAL LETTER DJE
0xA3	0x0403	#	CYRILLIC CAPITAL LETTER GJE
0xA4	0x0404	#	CYRILLIC CAPITAL LETTER UKRAINIAN IE
0xA5	0x0405	#	CYRILLIC CAPITAL LETTER DZE
0xA6	0x0406	#	CYRILLIC CAPITAL LETTER BYELORUSSIAN-UKRAINIAN I
0xA7	0x0407	#	CYRILLIC CAPITAL LETTER YI
0xA8	0x0408	#	CYRILLIC CAPITAL LETTER JE
0xA9	0x0409	#	CYRILLIC CAPITAL LETTER LJE
0xAA	0x040A	#	CYRILLIC CAPITAL LETTER NJE
0xAB	0x040B	#	CYRILLIC CAPITAL LETTER TSHE
0xAC	0x040C	#	CYRILLIC CAPITAL LETTER KJE
0xAD	0x00AD	#	SOFT HYPHEN
0xAE	0x040E	#	CYRILLIC CAPITAL LETTER SHORT U
0xAF	0x040F	#	CYRILLIC CAPITAL LETTER DZHE
0xB0	0x0410	#	CYRILLIC CAPITAL LETTER A
0xB1	0x0411	#	CYRILLIC CAPITAL LETTER BE
0xB2	0x0412	#	CYRILLIC CAPITAL LETTER VE
0xB3	0x0413	#	CYRILLIC CAPITAL LETTER GHE
0xB4	0x0414	#	CYRILLIC CAPITAL LETTER DE
0xB5	0x0415	#	CYRILLIC CAPITAL LETTER IE
0xB6	0x0416	#	CYRILLIC CAPITAL LETTER ZHE
0xB7	0x0417	#	CYRILLIC CAPITAL LETTER ZE
0xB8	0x0418	#	CYRILLIC CAPITAL LETTER I
0xB9	0x0419	#	CYRILLIC CAPITAL LETTER SHORT I
0xBA	0x041A	#	CYRILLIC CAPITAL LETTER KA
0xBB	0x041B	#	CYRILLIC CAPITAL LETTER EL
0xBC	0x041C	#	CYRILLIC CAPITAL LETTER EM
0xBD	0x041D	#	CYRILLIC CAPITAL LETTER EN
0xBE	0x041E	#	CYRILLIC CAPITAL LETTER O
0xBF	0x041F	#	CYRILLIC CAPITAL LETTER PE
0xC0	0x0420	#	CYRILLIC CAPITAL LETTER ER
0xC1	0x0421	#	CYRILLIC CAPITAL LETTER ES
0xC2	0x0422	#	CYRILLIC CAPITAL LETTER TE
0xC3	0x0423	#	CYRILLIC CAPITAL LETTER U
0xC4	0x0424	#	CYRILLIC CAPITAL LETTER EF
0xC5	0x0425	#	CYRILLIC CAPITAL LETTER HA
0xC6	0x0426	#	CYRILLIC CAPITAL LETTER TSE
0xC7	0x0427	#	CYRILLIC CAPITAL LETTER CHE
0xC8	0x0428	#	CYRILLIC CAPITAL LETTER SHA
0xC9	0x0429	#	CYRILLIC CAPITAL LETTER SHCHA
0xCA	0x042A	#	CYRILLIC CAPITAL LETTER HARD SIGN
0xCB	0x042B	#	CYRILLIC CAPITAL LETTER YERU
0xCC	0x042C	#	CYRILLIC CAPITAL LETTER SOFT SIGN
0xCD	0x042D	#	CYRILLIC CAPITAL LETTER E
0xCE	0x042E	#	CYRILLIC CAPITAL LETTER YU
0xCF	0x042F	#	CYRILLIC CAPITAL LETTER YA
0xD0	0x0430	#	CYRILLIC SMALL LETTER A
0xD1	0x0431	#	CYRILLIC SMALL LETTER BE
0xD2	0x0432	#	CYRILLIC SMALL LETTER VE
0xD3	0x0433	#	CYRILLIC SMALL LETTER GHE
0xD4	0x0434	#	CYRILLIC SMALL LETTER DE
0xD5	0x0435	#	CYRILLIC SMALL LETTER IE
0xD6	0x0436	#	CYRILLIC SMALL LETTER ZHE
0xD7	0x0437	#	CYRILLIC SMALL LETTER ZE
0xD8	0x0438	#	CYRILLIC SMALL LETTER I
0xD9	0x0439	#	CYRILLIC SMALL LETTER SHORT I
0xDA	0x043A	#	CYRILLIC SMALL LETTER KA
0xDB	0x043B	#	CYRILLIC SMALL LETTER EL
0xDC	0x043C	#	CYRILLIC SMALL LETTER EM
0xDD	0x043D	#	CYRILLIC SMALL LETTER EN
0xDE	0x043E	#	CYRILLIC SMALL LETTER O
0xDF	0x043F	#	CYRILLIC SMALL LETTER PE
0xE0	0x0440	#	CYRILLIC SMALL LETTER ER
0xE1	0x0441	#	CYRILLIC SMALL LETTER ES
0xE2	0x0442	#	CYRILLIC SMALL LETTER TE
0xE3	0x0443	#	CYRILLIC SMALL LETTER U
0xE4	0x0444	#	CYRILLIC SMALL LETTER EF
0xE5	0x0445	#	CYRILLIC SMALL LETTER HA
0xE6	0x0446	#	CYRILLIC SMALL LETTER TSE
0xE7	0x0447	#	CYRILLIC SMALL LETTER CHE
0xE8	0x0448	#	CYRILLIC SMALL LETTER SHA
0xE9	0x0449	#	CYRILLIC SMALL LETTER SHCHA
0xEA	0x044A	#	CYRILLIC SMALL LETTER HARD SIGN
0xEB	0x044B	#	CYRILLIC SMALL LETTER YERU
0xEC	0x044C	#	CYRILLIC SMALL LETTER SOFT SIGN
0xED	0x044D	#	CYRILLIC SMALL LETTER E
0xEE	0x044E	#	CYRILLIC SMALL LETTER YU
0xEF	0x044F	#	CYRILLIC SMALL LETTER YA
0xF0	0x2116	#	NUMERO SIGN
0xF1	0x0451	#	CYRILLIC SMALL LETTER IO
0xF2	0x0452	#	CYRILLIC SMALL LETTER DJE
0xF3	0x0453	#	CYRILLIC SMALL LETTER GJE
0xF4	0x0454	#	CYRILLIC SMALL LETTER UKRAINIAN IE
0xF5	0x0455	#	CYRILLIC SMALL LETTER DZE
0xF6	0x0456	#	CYRILLIC SMALL LETTER BYELORUSSIAN-UKRAINIAN I
0xF7	0x0457	#	CYRILLIC SMALL LETTER YI
0xF8	0x0458	#	CYRILLIC SMALL LETTER JE
0xF9	0x0459	#	CYRILLIC SMALL LETTER LJE
0xFA	0x045A	#	CYRILLIC SMALL LETTER NJE
0xFB	0x045B	#	CYRILLIC SMALL LETTER TSHE
0xFC	0x045C	#	CYRILLIC SMALL LETTER KJE
0xFD	0x00A7	#	SECTION SIGN
0xFE	0x045E	#	CYRILLIC SMALL LETTER SHORT U
0xFF	0x045F	#	CYRILLIC SMALL LETTER DZHE
"#

/-- src/generated/single_byte/iso-8859-5_tables.rs.inc:1-72 -/
noncomputable def iso_8859_5_source : List Text := lines! r#"// This file is auto-generated.  Please see `encoding_tables/single_byte/`
// from the root directory for the files that generate this.

use {DecodeResult, EncodeResult};

pub fn decode_to_str<'a>(
    input: &[u8],
    out_buffer: &'a mut [u8],
) -> DecodeResult<'a> {
    super::ascii_ext_decode_to_str(&DECODE_TABLE, input, out_buffer)
}

pub fn encode_from_str<'a>(
    input: &str,
    out_buffer: &'a mut [u8],
) -> EncodeResult<'a> {
    super::ascii_ext_encode_from_str(&ENCODE_TABLE, input, out_buffer)
}

const DECODE_TABLE: [char; 128] = [
    '\u{0080}','\u{0081}','\u{0082}','\u{0083}','\u{0084}','\u{0085}','\u{0086}','\u{0087}',
    '\u{0088}','\u{0089}','\u{008A}','\u{008B}','\u{008C}','\u{008D}','\u{008E}','\u{008F}',
    '\u{0090}','\u{0091}','\u{0092}','\u{0093}','\u{0094}','\u{0095}','\u{0096}','\u{0097}',
    '\u{0098}','\u{0099}','\u{009A}','\u{009B}','\u{009C}','\u{009D}','\u{009E}','\u{009F}',
    '\u{00A0}','\u{0401}','\u{0402}','\u{0403}','\u{0404}','\u{0405}','\u{0406}','\u{0407}',
    '\u{0408}','\u{0409}','\u{040A}','\u{040B}','\u{040C}','\u{00AD}','\u{040E}','\u{040F}',
    '\u{0410}','\u{0411}','\u{0412}','\u{0413}','\u{0414}','\u{0415}','\u{0416}','\u{0417}',
    '\u{0418}','\u{0419}','\u{041A}','\u{041B}','\u{041C}','\u{041D}','\u{041E}','\u{041F}',
    '\u{0420}','\u{0421}','\u{0422}','\u{0423}','\u{0424}','\u{0425}','\u{0426}','\u{0427}',
    '\u{0428}','\u{0429}','\u{042A}','\u{042B}','\u{042C}','\u{042D}','\u{042E}','\u{042F}',
    '\u{0430}','\u{0431}','\u{0432}','\u{0433}','\u{0434}','\u{0435}','\u{0436}','\u{0437}',
    '\u{0438}','\u{0439}','\u{043A}','\u{043B}','\u{043C}','\u{043D}','\u{043E}','\u{043F}',
    '\u{0440}','\u{0441}','\u{0442}','\u{0443}','\u{0444}','\u{0445}','\u{0446}','\u{0447}',
    '\u{0448}','\u{0449}','\u{044A}','\u{044B}','\u{044C}','\u{044D}','\u{044E}','\u{044F}',
    '\u{2116}','\u{0451}','\u{0452}','\u{0453}','\u{0454}','\u{0455}','\u{0456}','\u{0457}',
    '\u{0458}','\u{0459}','\u{045A}','\u{045B}','\u{045C}','\u{00A7}','\u{045E}','\u{045F}',
];

const ENCODE_TABLE: [(char, u8); 128] = [
    ('\u{0080}', 0x80), ('\u{0081}', 0x81), ('\u{0082}', 0x82), ('\u{0083}', 0x83), 
    ('\u{0084}', 0x84), ('\u{0085}', 0x85), ('\u{0086}', 0x86), ('\u{0087}', 0x87), 
    ('\u{0088}', 0x88), ('\u{0089}', 0x89), ('\u{008A}', 0x8A), ('\u{008B}', 0x8B), 
    ('\u{008C}', 0x8C), ('\u{008D}', 0x8D), ('\u{008E}', 0x8E), ('\u{008F}', 0x8F), 
    ('\u{0090}', 0x90), ('\u{0091}', 0x91), ('\u{0092}', 0x92), ('\u{0093}', 0x93), 
    ('\u{0094}', 0x94), ('\u{0095}', 0x95), ('\u{0096}', 0x96), ('\u{0097}', 0x97), 
    ('\u{0098}', 0x98), ('\u{0099}', 0x99), ('\u{009A}', 0x9A), ('\u{009B}', 0x9B), 
    ('\u{009C}', 0x9C), ('\u{009D}', 0x9D), ('\u{009E}', 0x9E), ('\u{009F}', 0x9F), 
    ('\u{00A0}', 0xA0), ('\u{00A7}', 0xFD), ('\u{00AD}', 0xAD), ('\u{0401}', 0xA1), 
    ('\u{0402}', 0xA2), ('\u{0403}', 0xA3), ('\u{0404}', 0xA4), ('\u{0405}', 0xA5), 
    ('\u{0406}', 0xA6), ('\u{0407}', 0xA7), ('\u{0408}', 0xA8), ('\u{0409}', 0xA9), 
    ('\u{040A}', 0xAA), ('\u{040B}', 0xAB), ('\u{040C}', 0xAC), ('\u{040E}', 0xAE), 
    ('\u{040F}', 0xAF), ('\u{0410}', 0xB0), ('\u{0411}', 0xB1), ('\u{0412}', 0xB2), 
    ('\u{0413}', 0xB3), ('\u{0414}', 0xB4), ('\u{0415}', 0xB5), ('\u{0416}', 0xB6), 
    ('\u{0417}', 0xB7), ('\u{0418}', 0xB8), ('\u{0419}', 0xB9), ('\u{041A}', 0xBA), 
    ('\u{041B}', 0xBB), ('\u{041C}', 0xBC), ('\u{041D}', 0xBD), ('\u{041E}', 0xBE), 
    ('\u{041F}', 0xBF), ('\u{0420}', 0xC0), ('\u{0421}', 0xC1), ('\u{0422}', 0xC2), 
    ('\u{0423}', 0xC3), ('\u{0424}', 0xC4), ('\u{0425}', 0xC5), ('\u{0426}', 0xC6), 
    ('\u{0427}', 0xC7), ('\u{0428}', 0xC8), ('\u{0429}', 0xC9), ('\u{042A}', 0xCA), 
    ('\u{042B}', 0xCB), ('\u{042C}', 0xCC), ('\u{042D}', 0xCD), ('\u{042E}', 0xCE), 
    ('\u{042F}', 0xCF), ('\u{0430}', 0xD0), ('\u{0431}', 0xD1), ('\u{0432}', 0xD2), 
    ('\u{0433}', 0xD3), ('\u{0434}', 0xD4), ('\u{0435}', 0xD5), ('\u{0436}', 0xD6), 
    ('\u{0437}', 0xD7), ('\u{0438}', 0xD8), ('\u{0439}', 0xD9), ('\u{043A}', 0xDA), 
    ('\u{043B}', 0xDB), ('\u{043C}', 0xDC), ('\u{043D}', 0xDD), ('\u{043E}', 0xDE), 
    ('\u{043F}', 0xDF), ('\u{0440}', 0xE0), ('\u{0441}', 0xE1), ('\u{0442}', 0xE2), 
    ('\u{0443}', 0xE3), ('\u{0444}', 0xE4), ('\u{0445}', 0xE5), ('\u{0446}', 0xE6), 
    ('\u{0447}', 0xE7), ('\u{0448}', 0xE8), ('\u{0449}', 0xE9), ('\u{044A}', 0xEA), 
    ('\u{044B}', 0xEB), ('\u{044C}', 0xEC), ('\u{044D}', 0xED), ('\u{044E}', 0xEE), 
    ('\u{044F}', 0xEF), ('\u{0451}', 0xF1), ('\u{0452}', 0xF2), ('\u{0453}', 0xF3), 
    ('\u{0454}', 0xF4), ('\u{0455}', 0xF5), ('\u{0456}', 0xF6), ('\u{0457}', 0xF7), 
    ('\u{0458}', 0xF8), ('\u{0459}', 0xF9), ('\u{045A}', 0xFA), ('\u{045B}', 0xFB), 
    ('\u{045C}', 0xFC), ('\u{045E}', 0xFE), ('\u{045F}', 0xFF), ('\u{2116}', 0xF0), 
];
"#

/-- encoding_tables/single_byte/ascii_ext/iso-8859-6.txt:1-249 -/
noncomputable def iso_8859_6_mapping : List Text := lines! r#"# 8859-6.TXT
# Date: 2015-12-02 21:44:00 GMT [KW]
# © 2015 Unicode®, Inc.
# For terms of use, see http://www.unicode.org/terms_of_use.html
#
#	Name:             ISO 8859-6:1999 to Unicode
#	Unicode version:  3.0
#	Table version:    2.0
#	Table format:     Format A
#	Date:             1999 July 27 (header updated: 2015 December 02)
#	Authors:          Ken Whistler <ken@unicode.org>
#
#	General notes:
#
#	This table contains the data the Unicode Consortium has on how
#       ISO/IEC 8859-6:1999 characters map into Unicode.
#
#	Format:  Three tab-separated columns
#		 Column #1 is the ISO/IEC 8859-6 code (in hex as 0xXX)
#		 Column #2 is the Unicode (in hex as 0xXXXX)
#		 Column #3 the Unicode name (follows a comment sign, '#')
#
#	The entries are in ISO/IEC 8859-6 order.
#
#	Version history
#   1.0 version: updates 0.1 version by adding mappings for all
#       control characters.
#       0x30..0x39 remapped to the ASCII digits (U+0030..U+0039) instead
#       of the Arabic digits (U+0660..U+0669).
#   2.0 version: updates to copyright notice and terms of use; no
#       changes to character mappings
#
#	Updated versions of this file may be found in:
#		http://www.unicode.org/Public/MAPPINGS/
#
#	Any comments or problems, contact us at:
#       http://www.unicode.org/reporting.html
#
0x00	0x0000	#	NULL
0x01	0x0001	#	START OF HEADING
0x02	0x0002	#	START OF TEXT
0x03	0x0003	#	END OF TEXT
0x04	0x0004	#	END OF TRANSMISSION
0x05	0x0005	#	ENQUIRY
0x06	0x0006	#	ACKNOWLEDGE
0x07	0x0007	#	BELL
0x08	0x0008	#	BACKSPACE
0x09	0x0009	#	HORIZONTAL TABULATION
0x0A	0x000A	#	LINE FEED
0x0B	0x000B	#	VERTICAL TABULATION
0x0C	0x000C	#	FORM FEED
0x0D	0x000D	#	CARRIAGE RETURN
0x0E	0x000E	#	SHIFT OUT
0x0F	0x000F	#	SHIFT IN
0x10	0x0010	#	DATA LINK ESCAPE
0x11	0x0011	#	DEVICE CONTROL ONE
0x12	0x0012	#	DEVICE CONTROL TWO
0x13	0x0013	#	DEVICE CONTROL THREE
0x14	0x0014	#	DEVICE CONTROL FOUR
0x15	0x0015	#	NEGATIVE ACKNOWLEDGE
0x16	0x0016	#	SYNCHRONOUS IDLE
0x17	0x0017	#	END OF TRANSMISSION BLOCK
0x18	0x0018	#	CANCEL
0x19	0x0019	#	END OF MEDIUM
0x1A	0x001A	#	SUBSTITUTE
0x1B	0x001B	#	ESCAPE
0x1C	0x001C	#	FILE SEPARATOR
0x1D	0x001D	#	GROUP SEPARATOR
0x1E	0x001E	#	RECORD SEPARATOR
0x1F	0x001F	#	UNIT SEPARATOR
0x20	0x0020	#	SPACE
0x21	0x0021	#	EXCLAMATION MARK
0x22	0x0022	#	QUOTATION MARK
0x23	0x0023	#	NUMBER SIGN
0x24	0x0024	#	DOLLAR SIGN
0x25	0x0025	#	PERCENT SIGN
0x26	0x0026	#	AMPERSAND
0x27	0x0027	#	APOSTROPHE
0x28	0x0028	#	LEFT PARENTHESIS
0x29	0x0029	#	RIGHT PARENTHESIS
0x2A	0x002A	#	ASTERISK
0x2B	0x002B	#	PLUS SIGN
0x2C	0x002C	#	COMMA
0x2D	0x002D	#	HYPHEN-MINUS
0x2E	0x002E	#	FULL STOP
0x2F	0x002F	#	SOLIDUS
0x30	0x0030	#	DIGIT ZERO
0x31	0x0031	#	DIGIT ONE
0x32	0x0032	#	DIGIT TWO
0x33	0x0033	#	DIGIT THREE
0x34	0x0034	#	DIGIT FOUR
0x35	0x0035	#	DIGIT FIVE
0x36	0x0036	#	DIGIT SIX
0x37	0x0037	#	DIGIT SEVEN
0x38	0x0038	#	DIGIT EIGHT
0x39	0x0039	#	DIGIT NINE
0x3A	0x003A	#	COLON
0x3B	0x003B	#	SEMICOLON
0x3C	0x003C	#	LESS-THAN SIGN
0x3D	0x003D	#	EQUALS SIGN
0x3E	0x003E	#	GREATER-THAN SIGN
0x3F	0x003F	#	QUESTION MARK
0x40	0x0040	#	COMMERCIAL AT
0x41	0x0041	#	LATIN CAPITAL LETTER A
0x42	0x0042	#	LATIN CAPITAL LETTER B
0x43	0x0043	#	LATIN CAPITAL LETTER C
0x44	0x0044	#	LATIN CAPITAL LETTER D
0x45	0x0045	#	LATIN CAPITAL LETTER E
0x46	0x0046	#	LATIN CAPITAL LETTER F
0x47	0x0047	#	LATIN CAPITAL LETTER G
0x48	0x0048	#	LATIN CAPITAL LETTER H
0x49	0x0049	#	LATIN CAPITAL LETTER I
0x4A	0x004A	#	LATIN CAPITAL LETTER J
0x4B	0x004B	#	LATIN CAPITAL LETTER K
0x4C	0x004C	#	LATIN CAPITAL LETTER L
0x4D	0x004D	#	LATIN CAPITAL LETTER M
0x4E	0x004E	#	LATIN CAPITAL LETTER N
0x4F	0x004F	#	LATIN CAPITAL LETTER O
0x50	0x0050	#	LATIN CAPITAL LETTER P
0x51	0x0051	#	LATIN CAPITAL LETTER Q
0x52	0x0052	#	LATIN CAPITAL LETTER R
0x53	0x0053	#	LATIN CAPITAL LETTER S
0x54	0x0054	#	LATIN CAPITAL LETTER T
0x55	0x0055	#	LATIN CAPITAL LETTER U
0x56	0x0056	#	LATIN CAPITAL LETTER V
0x57	0x0057	#	LATIN CAPITAL LETTER W
0x58	0x0058	#	LATIN CAPITAL LETTER X
0x59	0x0059	#	LATIN CAPITAL LETTER Y
0x5A	0x005A	#	LATIN CAPITAL LETTER Z
0x5B	0x005B	#	LEFT SQUARE BRACKET
0x5C	0x005C	#	REVERSE SOLIDUS
0x5D	0x005D	#	RIGHT SQUARE BRACKET
0x5E	0x005E	#	CIRCUMFLEX ACCENT
0x5F	0x005F	#	LOW LINE
0x60	0x0060	#	GRAVE ACCENT
0x61	0x0061	#	LATIN SMALL LETTER A
0x62	0x0062	#	LATIN SMALL LETTER B
0x63	0x0063	#	LATIN SMALL LETTER C
0x64	0x0064	#	LATIN SMALL LETTER D
0x65	0x0065	#	LATIN SMALL LETTER E
0x66	0x0066	#	LATIN SMALL LETTER F
0x67	0x0067	#	LATIN SMALL LETTER G
0x68	0x0068	#	LATIN SMALL LETTER H
0x69	0x0069	#	LATIN SMALL LETTER I
0x6A	0x006A	#	LATIN SMALL LETTER J
0x6B	0x006B	#	LATIN SMALL LETTER K
0x6C	0x006C	#	LATIN SMALL LETTER L
0x6D	0x006D	#	LATIN SMALL LETTER M
0x6E	0x006E	#	LATIN SMALL LETTER N
0x6F	0x006F	#	LATIN SMALL LETTER O
0x70	0x0070	#	LATIN SMALL LETTER P
0x71	0x0071	#	LATIN SMALL LETTER Q
0x72	0x0072	#	LATIN SMALL LETTER R
0x73	0x0073	#	LATIN SMALL LETTER S
0x74	0x0074	#	LATIN SMALL LETTER T
0x75	0x0075	#	LATIN SMALL LETTER U
0x76	0x0076	#	LATIN SMALL LETTER V
0x77	0x0077	#	LATIN SMALL LETTER W
0x78	0x0078	#	LATIN SMALL LETTER X
0x79	0x0079	#	LATIN SMALL LETTER Y
0x7A	0x007A	#	LATIN SMALL LETTER Z
0x7B	0x007B	#	LEFT CURLY BRACKET
0x7C	0x007C	#	VERTICAL LINE
0x7D	0x007D	#	RIGHT CURLY BRACKET
0x7E	0x007E	#	TILDE
0x7F	0x007F	#	DELETE
0x80	0x0080	#	<control>
0x81	0x0081	#	<control>
0x82	0x0082	#	<control>
0x83	0x0083	#	<control>
0x84	0x0084	#	<control>
0x85	0x0085	#	<control>
0x86	0x0086	#	<control>
0x87	0x0087	#	<control>
0x88	0x0088	#	<control>
0x89	0x0089	#	<control>
0x8A	0x008A	#	<control>
0x8B	0x008B	#	<control>
0x8C	0x008C	#	<control>
0x8D	0x008D	#	<control>
0x8E	0x008E	#	<control>
0x8F	0x008F	#	<control>
0x90	0x0090	#	<control>
0x91	0x0091	#	<control>
0x92	0x0092	#	<control>
0x93	0x0093	#	<control>
0x94	0x0094	#	<control>
0x95	0x0095	#	<control>
0x96	0x0096	#	<control>
0x97	0x0097	#	<control>
0x98	0x0098	#	<control>
0x99	0x0099	#	<control>
0x9A	0x009A	#	<control>
0x9B	0x009B	#	<control>
0x9C	0x009C	#	<control>
0x9D	0x009D	#	<control>
0x9E	0x009E	#	<control>
0x9F	0x009F	#	<control>
0xA0	0x00A0	#	NO-BREAK SPACE
0xA4	0x00A4	#	CURRENCY SIGN
0xAC	0x060C	#	ARABIC COMMA
0xAD	0x00AD	#	SOFT HYPHEN
0xBB	0x061B	#	ARABIC SEMICOLON
0xBF	0x061F	#	ARABIC QUESTION MARK
0xC1	0x0621	#	ARABIC LETTER HAMZA
0xC2	0x0622	#	ARABIC LETTER ALEF WITH MADDA ABOVE
0xC3	0x0623	#	ARABIC LETTER ALEF WITH HAMZA ABOVE
0xC4	0x0624	#	ARABIC LETTER WAW WITH HAMZA ABOVE
0xC5	0x0625	#	ARABIC LETTER ALEF WITH HAMZA BELOW
0xC6	0x0626	#	ARABIC LETTER YEH WITH HAMZA ABOVE
0xC7	0x0627	#	ARABIC LETTER ALEF
0xC8	0x0628	#	ARABIC LETTER BEH
0xC9	0x0629	#	ARABIC LETTER TEH MARBUTA
0xCA	0x062A	#	ARABIC LETTER TEH
0xCB	0x062B	#	ARABIC LETTER THEH
0xCC	0x062C	#	ARABIC LETTER JEEM
0xCD	0x062D	#	ARABIC LETTER HAH
0xCE	0x062E	#	ARABIC LETTER KHAH
0xCF	0x062F	#	ARABIC LETTER DAL
0xD0	0x0630	#	ARABIC LETTER THAL
0xD1	0x0631	#	ARABIC LETTER REH
0xD2	0x0632	#	ARABIC LETTER ZAIN
0xD3	0x0633	#	ARABIC LETTER SEEN
0xD4	0x0634	#	ARABIC LETTER SHEEN
0xD5	0x0635	#	ARABIC LETTER SAD
0xD6	0x0636	#	ARABIC LETTER DAD
0xD7	0x0637	#	ARABIC LETTER TAH
0xD8	0x0638	#	ARABIC LETTER ZAH
0xD9	0x0639	#	ARABIC LETTER AIN
0xDA	0x063A	#	ARABIC LETTER GHAIN
0xE0	0x0640	#	ARABIC TATWEEL
0xE1	0x0641	#	ARABIC LETTER FEH
0xE2	0x0642	#	ARABIC LETTER QAF
0xE3	0x0643	#	ARABIC LETTER KAF
0xE4	0x0644	#	ARABIC LETTER LAM
0xE5	0x0645	#	ARABIC LETTER MEEM
0xE6	0x0646	#	ARABIC LETTER NOON
0xE7	0x0647	#	ARABIC LETTER HEH
0xE8	0x0648	#	ARABIC LETTER WAW
0xE9	0x0649	#	ARABIC LETTER ALEF MAKSURA
0xEA	0x064A	#	ARABIC LETTER YEH
0xEB	0x064B	#	ARABIC FATHATAN
0xEC	0x064C	#	ARABIC DAMMATAN
0xED	0x064D	#	ARABIC KASRATAN
0xEE	0x064E	#	ARABIC FATHA
0xEF	0x064F	#	ARABIC DAMMA
0xF0	0x0650	#	ARABIC KASRA
0xF1	0x0651	#	ARABIC SHADDA
0xF2	0x0652	#	ARABIC SUKUN
"#

/-- src/generated/single_byte/iso-8859-6_tables.rs.inc:1-61 -/
noncomputable def iso_8859_6_source : List Text := lines! r#"// This file is auto-generated.  Please see `encoding_tables/single_byte/`
// from the root directory for the files that generate this.

use {DecodeResult, EncodeResult};

pub fn decode_to_str<'a>(
    input: &[u8],
    out_buffer: &'a mut [u8],
) -> DecodeResult<'a> {
    super::ascii_ext_decode_to_str(&DECODE_TABLE, input, out_buffer)
}

pub fn encode_from_str<'a>(
    input: &str,
    out_buffer: &'a mut [u8],
) -> EncodeResult<'a> {
    super::ascii_ext_encode_from_str(&ENCODE_TABLE, input, out_buffer)
}

const DECODE_TABLE: [char; 128] = [
    '\u{0080}','\u{0081}','\u{0082}','\u{0083}','\u{0084}','\u{0085}','\u{0086}','\u{0087}',
    '\u{0088}','\u{0089}','\u{008A}','\u{008B}','\u{008C}','\u{008D}','\u{008E}','\u{008F}',
    '\u{0090}','\u{0091}','\u{0092}','\u{0093}','\u{0094}','\u{0095}','\u{0096}','\u{0097}',
    '\u{0098}','\u{0099}','\u{009A}','\u{009B}','\u{009C}','\u{009D}','\u{009E}','\u{009F}',
    '\u{00A0}','�','�','�','\u{00A4}','�','�','�',
    '�','�','�','�','\u{060C}','\u{00AD}','�','�',
    '�','�','�','�','�','�','�','�',
    '�','�','�','\u{061B}','�','�','�','\u{061F}',
    '�','\u{0621}','\u{0622}','\u{0623}','\u{0624}','\u{0625}','\u{0626}','\u{0627}',
    '\u{0628}','\u{0629}','\u{062A}','\u{062B}','\u{062C}','\u{062D}','\u{062E}','\u{062F}',
    '\u{0630}','\u{0631}','\u{0632}','\u{0633}','\u{0634}','\u{0635}','\u{0636}','\u{0637}',
    '\u{0638}','\u{0639}','\u{063A}','�','�','�','�','�',
    '\u{0640}','\u{0641}','\u{0642}','\u{0643}','\u{0644}','\u{0645}','\u{0646}','\u{0647}',
    '\u{0648}','\u{0649}','\u{064A}','\u{064B}','\u{064C}','\u{064D}','\u{064E}','\u{064F}',
    '\u{0650}','\u{0651}','\u{0652}','�','�','�','�','�',
    '�','�','�','�','�','�','�','�',
];

const ENCODE_TABLE: [(char, u8); 83] = [
    ('\u{0080}', 0x80), ('\u{0081}', 0x81), ('\u{0082}', 0x82), ('\u{0083}', 0x83), 
    ('\u{0084}', 0x84), ('\u{0085}', 0x85), ('\u{0086}', 0x86), ('\u{0087}', 0x87), 
    ('\u{0088}', 0x88), ('\u{0089}', 0x89), ('\u{008A}', 0x8A), ('\u{008B}', 0x8B), 
    ('\u{008C}', 0x8C), ('\u{008D}', 0x8D), ('\u{008E}', 0x8E), ('\u{008F}', 0x8F), 
    ('\u{0090}', 0x90), ('\u{0091}', 0x91), ('\u{0092}', 0x92), ('\u{0093}', 0x93), 
    ('\u{0094}', 0x94), ('\u{0095}', 0x95), ('\u{0096}', 0x96), ('\u{0097}', 0x97), 
    ('\u{0098}', 0x98), ('\u{0099}', 0x99), ('\u{009A}', 0x9A), ('\u{009B}', 0x9B), 
    ('\u{009C}', 0x9C), ('\u{009D}', 0x9D), ('\u{009E}', 0x9E), ('\u{009F}', 0x9F), 
    ('\u{00A0}', 0xA0), ('\u{00A4}', 0xA4), ('\u{00AD}', 0xAD), ('\u{060C}', 0xAC), 
    ('\u{061B}', 0xBB), ('\u{061F}', 0xBF), ('\u{0621}', 0xC1), ('\u{0622}', 0xC2), 
    ('\u{0623}', 0xC3), ('\u{0624}', 0xC4), ('\u{0625}', 0xC5), ('\u{0626}', 0xC6), 
    ('\u{0627}', 0xC7), ('\u{0628}', 0xC8), ('\u{0629}', 0xC9), ('\u{062A}', 0xCA), 
    ('\u{062B}', 0xCB), ('\u{062C}', 0xCC), ('\u{062D}', 0xCD), ('\u{062E}', 0xCE), 
    ('\u{062F}', 0xCF), ('\u{0630}', 0xD0), ('\u{0631}', 0xD1), ('\u{0632}', 0xD2), 
    ('\u{0633}', 0xD3), ('\u{0634}', 0xD4), ('\u{0635}', 0xD5), ('\u{0636}', 0xD6), 
    ('\u{0637}', 0xD7), ('\u{0638}', 0xD8), ('\u{0639}', 0xD9), ('\u{063A}', 0xDA), 
    ('\u{0640}', 0xE0), ('\u{0641}', 0xE1), ('\u{0642}', 0xE2), ('\u{0643}', 0xE3), 
    ('\u{0644}', 0xE4), ('\u{0645}', 0xE5), ('\u{0646}', 0xE6), ('\u{0647}', 0xE7), 
    ('\u{0648}', 0xE8), ('\u{0649}', 0xE9), ('\u{064A}', 0xEA), ('\u{064B}', 0xEB), 
    ('\u{064C}', 0xEC), ('\u{064D}', 0xED), ('\u{064E}', 0xEE), ('\u{064F}', 0xEF), 
    ('\u{0650}', 0xF0), ('\u{0651}', 0xF1), ('\u{0652}', 0xF2), 
];
"#

/-- encoding_tables/single_byte/ascii_ext/iso-8859-7.txt:1-299 -/
noncomputable def iso_8859_7_mapping : List Text := lines! r#"# 8859-7.TXT
# Date: 2015-12-02 21:47:00 GMT [KW]
# © 2015 Unicode®, Inc.
# For terms of use, see http://www.unicode.org/terms_of_use.html
#
#	Name:             ISO 8859-7:2003 to Unicode
#	Unicode version:  4.0
#	Table version:    3.0
#	Table format:     Format A
#	Date:             2003-Nov-12 (header updated: 2015 December 02)
#	Authors:          Ken Whistler <ken@unicode.org>
#
#	General notes:
#
#	This table contains the data the Unicode Consortium has on how
#       ISO 8859-7:2003 characters map into Unicode.
#
#	ISO 8859-7:1987 is equivalent to ISO-IR-126, ELOT 928,
#	and ECMA 118. ISO 8859-7:2003 adds two currency signs 
#	and one other character not in the earlier standard.
#
#	Format:  Three tab-separated columns
#		 Column #1 is the ISO 8859-7 code (in hex as 0xXX)
#		 Column #2 is the Unicode (in hex as 0xXXXX)
#		 Column #3 the Unicode name (follows a comment sign, '#')
#
#	The entries are in ISO 8859-7 order.
#
#	Version history
#	1.0 version updates 0.1 version by adding mappings for all
#	control characters.
#	Remap 0xA1 to U+2018 (instead of 0x02BD) to match text of 8859-7
#	Remap 0xA2 to U+2019 (instead of 0x02BC) to match text of 8859-7
#
#	2.0 version updates 1.0 version by adding mappings for the
#	three newly added characters 0xA4, 0xA5, 0xAA.
#
#   3.0 version: updates to copyright notice and terms of use; no
#       changes to character mappings
#
#	Updated versions of this file may be found in:
#		http://www.unicode.org/Public/MAPPINGS/
#
#	Any comments or problems, contact us at:
#       http://www.unicode.org/reporting.html
#
0x00	0x0000	#	NULL
0x01	0x0001	#	START OF HEADING
0x02	0x0002	#	START OF TEXT
0x03	0x0003	#	END OF TEXT
0x04	0x0004	#	END OF TRANSMISSION
0x05	0x0005	#	ENQUIRY
0x06	0x0006	#	ACKNOWLEDGE
0x07	0x0007	#	BELL
0x08	0x0008	#	BACKSPACE
0x09	0x0009	#	HORIZONTAL TABULATION
0x0A	0x000A	#	LINE FEED
0x0B	0x000B	#	VERTICAL TABULATION
0x0C	0x000C	#	FORM FEED
0x0D	0x000D	#	CARRIAGE RETURN
0x0E	0x000E	#	SHIFT OUT
0x0F	0x000F	#	SHIFT IN
0x10	0x0010	#	DATA LINK ESCAPE
0x11	0x0011	#	DEVICE CONTROL ONE
0x12	0x0012	#	DEVICE CONTROL TWO
0x13	0x0013	#	DEVICE CONTROL THREE
0x14	0x0014	#	DEVICE CONTROL FOUR
0x15	0x0015	#	NEGATIVE ACKNOWLEDGE
0x16	0x0016	#	SYNCHRONOUS IDLE
0x17	0x0017	#	END OF TRANSMISSION BLOCK
0x18	0x0018	#	CANCEL
0x19	0x0019	#	END OF MEDIUM
0x1A	0x001A	#	SUBSTITUTE
0x1B	0x001B	#	ESCAPE
0x1C	0x001C	#	FILE SEPARATOR
0x1D	0x001D	#	GROUP SEPARATOR
0x1E	0x001E	#	RECORD SEPARATOR
0x1F	0x001F	#	UNIT SEPARATOR
0x20	0x0020	#	SPACE
0x21	0x0021	#	EXCLAMATION MARK
0x22	0x0022	#	QUOTATION MARK
0x23	0x0023	#	NUMBER SIGN
0x24	0x0024	#	DOLLAR SIGN
0x25	0x0025	#	PERCENT SIGN
0x26	0x0026	#	AMPERSAND
0x27	0x0027	#	APOSTROPHE
0x28	0x0028	#	LEFT PARENTHESIS
0x29	0x0029	#	RIGHT PARENTHESIS
0x2A	0x002A	#	ASTERISK
0x2B	0x002B	#	PLUS SIGN
0x2C	0x002C	#	COMMA
0x2D	0x002D	#	HYPHEN-MINUS
0x2E	0x002E	#	FULL STOP
0x2F	0x002F	#	SOLIDUS
0x30	0x0030	#	DIGIT ZERO
0x31	0x0031	#	DIGIT ONE
0x32	0x0032	#	DIGIT TWO
0x33	0x0033	#	DIGIT THREE
0x34	0x0034	#	DIGIT FOUR
0x35	0x0035	#	DIGIT FIVE
0x36	0x0036	#	DIGIT SIX
0x37	0x0037	#	DIGIT SEVEN
0x38	0x0038	#	DIGIT EIGHT
0x39	0x0039	#	DIGIT NINE
0x3A	0x003A	#	COLON
0x3B	0x003B	#	SEMICOLON
0x3C	0x003C	#	LESS-THAN SIGN
0x3D	0x003D	#	EQUALS SIGN
0x3E	0x003E	#	GREATER-THAN SIGN
0x3F	0x003F	#	QUESTION MARK
0x40	0x0040	#	COMMERCIAL AT
0x41	0x0041	#	LATIN CAPITAL LETTER A
0x42	0x0042	#	LATIN CAPITAL LETTER B
0x43	0x0043	#	LATIN CAPITAL LETTER C
0x44	0x0044	#	LATIN CAPITAL LETTER D
0x45	0x0045	#	LATIN CAPITAL LETTER E
0x46	0x0046	#	LATIN CAPITAL LETTER F
0x47	0x0047	#	LATIN CAPITAL LETTER G
0x48	0x0048	#	LATIN CAPITAL LETTER H
0x49	0x0049	#	LATIN CAPITAL LETTER I
0x4A	0x004A	#	LATIN CAPITAL LETTER J
0x4B	0x004B	#	LATIN CAPITAL LETTER K
0x4C	0x004C	#	LATIN CAPITAL LETTER L
0x4D	0x004D	#	LATIN CAPITAL LETTER M
0x4E	0x004E	#	LATIN CAPITAL LETTER N
0x4F	0x004F	#	LATIN CAPITAL LETTER O
0x50	0x0050	#	LATIN CAPITAL LETTER P
0x51	0x0051	#	LATIN CAPITAL LETTER Q
0x52	0x0052	#	LATIN CAPITAL LETTER R
0x53	0x0053	#	LATIN CAPITAL LETTER S
0x54	0x0054	#	LATIN CAPITAL LETTER T
0x55	0x0055	#	LATIN CAPITAL LETTER U
0x56	0x0056	#	LATIN CAPITAL LETTER V
0x57	0x0057	#	LATIN CAPITAL LETTER W
0x58	0x0058	#	LATIN CAPITAL LETTER X
0x59	0x0059	#	LATIN CAPITAL LETTER Y
0x5A	0x005A	#	LATIN CAPITAL LETTER Z
0x5B	0x005B	#	LEFT SQUARE BRACKET
0x5C	0x005C	#	REVERSE SOLIDUS
0x5D	0x005D	#	RIGHT SQUARE BRACKET
0x5E	0x005E	#	CIRCUMFLEX ACCENT
0x5F	0x005F	#	LOW LINE
0x60	0x0060	#	GRAVE ACCENT
0x61	0x0061	#	LATIN SMALL LETTER A
0x62	0x0062	#	LATIN SMALL LETTER B
0x63	0x0063	#	LATIN SMALL LETTER C
0x64	0x0064	#	LATIN SMALL LETTER D
0x65	0x0065	#	LATIN SMALL LETTER E
0x66	0x0066	#	LATIN SMALL LETTER F
0x67	0x0067	#	LATIN SMALL LETTER G
0x68	0x0068	#	LATIN SMALL LETTER H
0x69	0x0069	#	LATIN SMALL LETTER I
0x6A	0x006A	#	LATIN SMALL LETTER J
0x6B	0x006B	#	LATIN SMALL LETTER K
0x6C	0x006C	#	LATIN SMALL LETTER L
0x6D	0x006D	#	LATIN SMALL LETTER M
0x6E	0x006E	#	LATIN SMALL LETTER N
0x6F	0x006F	#	LATIN SMALL LETTER O
0x70	0x0070	#	LATIN SMALL LETTER P
0x71	0x0071	#	LATIN SMALL LETTER Q
0x72	0x0072	#	LATIN SMALL LETTER R
0x73	0x0073	#	LATIN SMALL LETTER S
0x74	0x0074	#	LATIN SMALL LETTER T
0x75	0x0075	#	LATIN SMALL LETTER U
0x76	0x0076	#	LATIN SMALL LETTER V
0x77	0x0077	#	LATIN SMALL LETTER W
0x78	0x0078	#	LATIN SMALL LETTER X
0x79	0x0079	#	LATIN SMALL LETTER Y
0x7A	0x007A	#	LATIN SMALL LETTER Z
0x7B	0x007B	#	LEFT CURLY BRACKET
0x7C	0x007C	#	VERTICAL LINE
0x7D	0x007D	#	RIGHT CURLY BRACKET
0x7E	0x007E	#	TILDE
0x7F	0x007F	#	DELETE
0x80	0x0080	#	<control>
0x81	0x0081	#	<control>
0x82	0x0082	#	<control>
0x83	0x0083	#	<control>
0x84	0x0084	#	<control>
0x85	0x0085	#	<control>
0x86	0x0086	#	<control>
0x87	0x0087	#	<control>
0x88	0x0088	#	<control>
0x89	0x0089	#	<control>
0x8A	0x008A	#	<control>
0x8B	0x008B	#	<control>
0x8C	0x008C	#	<control>
0x8D	0x008D	#	<control>
0x8E	0x008E	#	<control>
0x8F	0x008F	#	<control>
0x90	0x0090	#	<control>
0x91	0x0091	#	<control>
0x92	0x0092	#	<control>
0x93	0x0093	#	<control>
0x94	0x0094	#	<control>
0x95	0x0095	#	<control>
0x96	0x0096	#	<control>
0x97	0x0097	#	<control>
0x98	0x0098	#	<control>
0x99	0x0099	#	<control>
0x9A	0x009A	#	<control>
0x9B	0x009B	#	<control>
0x9C	0x009C	#	<control>
0x9D	0x009D	#	<control>
0x9E	0x009E	#	<control>
0x9F	0x009F	#	<control>
0xA0	0x00A0	#	NO-BREAK SPACE
0xA1	0x2018	#	LEFT SINGLE QUOTATION MARK
0xA2	0x2019	#	RIGHT SINGLE QUOTATION MARK
0xA3	0x00A3	#	POUND SIGN
0xA4	0x20AC	#	EURO SIGN
0xA5	0x20AF	#	DRACHMA SIGN
0xA6	0x00A6	#	BROKEN BAR
0xA7	0x00A7	#	SECTION SIGN
0xA8	0x00A8	#	DIAERESIS
0xA9	0x00A9	#	COPYRIGHT SIGN
0xAA	0x037A	#	GREEK YPOGEGRAMMENI
0xAB	0x00AB	#	LEFT-POINTING DOUBLE ANGLE QUOTATION MARK
0xAC	0x00AC	#	NOT SIGN
0xAD	0x00AD	#	SOFT HYPHEN
0xAF	0x2015	#	HORIZONTAL BAR
0xB0	0x00B0	#	DEGREE SIGN
0xB1	0x00B1	#	PLUS-MINUS SIGN
0xB2	0x00B2	#	SUPERSCRIPT TWO
0xB3	0x00B3	#	SUPERSCRIPT THREE
0xB4	0x0384	#	GREEK TONOS
0xB5	0x0385	#	GREEK DIALYTIKA TONOS
0xB6	0x0386	#	GREEK CAPITAL LETTER ALPHA WITH TONOS
0xB7	0x00B7	#	MIDDLE DOT
0xB8	0x0388	#	GREEK CAPITAL LETTER EPSILON WITH TONOS
0xB9	0x0389	#	GREEK CAPITAL LETTER ETA WITH TONOS
0xBA	0x038A	#	GREEK CAPITAL LETTER IOTA WITH TONOS
0xBB	0x00BB	#	RIGHT-POINTING DOUBLE ANGLE QUOTATION MARK
0xBC	0x038C	#	GREEK CAPITAL LETTER OMICRON WITH TONOS
0xBD	0x00BD	#	VULGAR FRACTION ONE HALF
0xBE	0x038E	#	GREEK CAPITAL LETTER UPSILON WITH TONOS
0xBF	0x038F	#	GREEK CAPITAL LETTER OMEGA WITH TONOS
0xC0	0x0390	#	GREEK SMALL LETTER IOTA WITH DIALYTIKA AND TONOS
0xC1	0x0391	#	GREEK CAPITAL LETTER ALPHA
0xC2	0x0392	#	GREEK CAPITAL LETTER BETA
0xC3	0x0393	#	GREEK CAPITAL LETTER GAMMA
0xC4	0x0394	#	GREEK CAPITAL LETTER DELTA
0xC5	0x0395	#	GREEK CAPITAL LETTER EPSILON
0xC6	0x0396	#	GREEK CAPITAL LETTER ZETA
0xC7	0x0397	#	GREEK CAPITAL LETTER ETA
0xC8	0x0398	#	GREEK CAPITAL LETTER THETA
0xC9	0x0399	#	GREEK CAPITAL LETTER IOTA
0xCA	0x039A	#	GREEK CAPITAL LETTER KAPPA
0xCB	0x039B	#	GREEK CAPITAL LETTER LAMDA
0xCC	0x039C	#	GREEK CAPITAL LETTER MU
0xCD	0x039D	#	GREEK CAPITAL LETTER NU
0xCE	0x039E	#	GREEK CAPITAL LETTER XI
0xCF	0x039F	#	GREEK CAPITAL LETTER OMICRON
0xD0	0x03A0	#	GREEK CAPITAL LETTER PI
0xD1	0x03A1	#	GREEK CAPITAL LETTER RHO
0xD3	0x03A3	#	GREEK CAPITAL LETTER SIGMA
0xD4	0x03A4	#	GREEK CAPITAL LETTER TAU
0xD5	0x03A5	#	GREEK CAPITAL LETTER UPSILON
0xD6	0x03A6	#	GREEK CAPITAL LETTER PHI
0xD7	0x03A7	#	GREEK CAPITAL LETTER CHI
0xD8	0x03A8	#	GREEK CAPITAL LETTER PSI
0xD9	0x03A9	#	GREEK CAPITAL LETTER OMEGA
0xDA	0x03AA	#	GREEK CAPITAL LETTER IOTA WITH DIALYTIKA
0xDB	0x03AB	#	GREEK CAPITAL LETTER UPSILON WITH DIALYTIKA
0xDC	0x03AC	#	GREEK SMALL LETTER ALPHA WITH TONOS
0xDD	0x03AD	#	GREEK SMALL LETTER EPSILON WITH TONOS
0xDE	0x03AE	#	GREEK SMALL LETTER ETA WITH TONOS
0xDF	0x03AF	#	GREEK SMALL LETTER IOTA WITH TONOS
0xE0	0x03B0	#	GREEK SMALL LETTER UPSILON WITH DIALYTIKA AND TONOS
0xE1	0x03B1	#	GREEK SMALL LETTER ALPHA
0xE2	0x03B2	#	GREEK SMALL LETTER BETA
0xE3	0x03B3	#	GREEK SMALL LETTER GAMMA
0xE4	0x03B4	#	GREEK SMALL LETTER DELTA
0xE5	0x03B5	#	GREEK SMALL LETTER EPSILON
0xE6	0x03B6	#	GREEK SMALL LETTER ZETA
0xE7	0x03B7	#	GREEK SMALL LETTER ETA
0xE8	0x03B8	#	GREEK SMALL LETTER THETA
0xE9	0x03B9	#	GREEK SMALL LETTER IOTA
0xEA	0x03BA	#	GREEK SMALL LETTER KAPPA
0xEB	0x03BB	#	GREEK SMALL LETTER LAMDA
0xEC	0x03BC	#	GREEK SMALL LETTER MU
0xED	0x03BD	#	GREEK SMALL LETTER NU
0xEE	0x03BE	#	GREEK SMALL LETTER XI
0xEF	0x03BF	#	GREEK SMALL LETTER OMICRON
0xF0	0x03C0	#	GREEK SMALL LETTER PI
0xF1	0x03C1	#	GREEK SMALL LETTER RHO
0xF2	0x03C2	#	GREEK SMALL LETTER FINAL SIGMA
0xF3	0x03C3	#	GREEK SMALL LETTER SIGMA
0xF4	0x03C4	#	GREEK SMALL LETTER TAU
0xF5	0x03C5	#	GREEK SMALL LETTER UPSILON
0xF6	0x03C6	#	GREEK SMALL LETTER PHI
0xF7	0x03C7	#	GREEK SMALL LETTER CHI
0xF8	0x03C8	#	GREEK SMALL LETTER PSI
0xF9	0x03C9	#	GREEK SMALL LETTER OMEGA
0xFA	0x03CA	#	GREEK SMALL LETTER IOTA WITH DIALYTIKA
0xFB	0x03CB	#	GREEK SMALL LETTER UPSILON WITH DIALYTIKA
0xFC	0x03CC	#	GREEK SMALL LETTER OMICRON WITH TONOS
0xFD	0x03CD	#	GREEK SMALL LETTER UPSILON WITH TONOS
0xFE	0x03CE	#	GREEK SMALL LETTER OMEGA WITH TONOS
"#

/-- src/generated/single_byte/iso-8859-7_tables.rs.inc:1-72 -/
noncomputable def iso_8859_7_source : List Text := lines! r#"// This file is auto-generated.  Please see `encoding_tables/single_byte/`
// from the root directory for the files that generate this.

use {DecodeResult, EncodeResult};

pub fn decode_to_str<'a>(
    input: &[u8],
    out_buffer: &'a mut [u8],
) -> DecodeResult<'a> {
    super::ascii_ext_decode_to_str(&DECODE_TABLE, input, out_buffer)
}

pub fn encode_from_str<'a>(
    input: &str,
    out_buffer: &'a mut [u8],
) -> EncodeResult<'a> {
    super::ascii_ext_encode_from_str(&ENCODE_TABLE, input, out_buffer)
}

const DECODE_TABLE: [char; 128] = [
    '\u{0080}','\u{0081}','\u{0082}','\u{0083}','\u{0084}','\u{0085}','\u{0086}','\u{0087}',
    '\u{0088}','\u{0089}','\u{008A}','\u{008B}','\u{008C}','\u{008D}','\u{008E}','\u{008F}',
    '\u{0090}','\u{0091}','\u{0092}','\u{0093}','\u{0094}','\u{0095}','\u{0096}','\u{0097}',
    '\u{0098}','\u{0099}','\u{009A}','\u{009B}','\u{009C}','\u{009D}','\u{009E}','\u{009F}',
    '\u{00A0}','\u{2018}','\u{2019}','\u{00A3}','\u{20AC}','\u{20AF}','\u{00A6}','\u{00A7}',
    '\u{00A8}','\u{00A9}','\u{037A}','\u{00AB}','\u{00AC}','\u{00AD}','�','\u{2015}',
    '\u{00B0}','\u{00B1}','\u{00B2}','\u{00B3}','\u{0384}','\u{0385}','\u{0386}','\u{00B7}',
    '\u{0388}','\u{0389}','\u{038A}','\u{00BB}','\u{038C}','\u{00BD}','\u{038E}','\u{038F}',
    '\u{0390}','\u{0391}','\u{0392}','\u{0393}','\u{0394}','\u{0395}','\u{0396}','\u{0397}',
    '\u{0398}','\u{0399}','\u{039A}','\u{039B}','\u{039C}','\u{039D}','\u{039E}','\u{039F}',
    '\u{03A0}','\u{03A1}','�','\u{03A3}','\u{03A4}','\u{03A5}','\u{03A6}','\u{03A7}',
    '\u{03A8}','\u{03A9}','\u{03AA}','\u{03AB}','\u{03AC}','\u{03AD}','\u{03AE}','\u{03AF}',
    '\u{03B0}','\u{03B1}','\u{03B2}','\u{03B3}','\u{03B4}','\u{03B5}','\u{03B6}','\u{03B7}',
    '\u{03B8}','\u{03B9}','\u{03BA}','\u{03BB}','\u{03BC}','\u{03BD}','\u{03BE}','\u{03BF}',
    '\u{03C0}','\u{03C1}','\u{03C2}','\u{03C3}','\u{03C4}','\u{03C5}','\u{03C6}','\u{03C7}',
    '\u{03C8}','\u{03C9}','\u{03CA}','\u{03CB}','\u{03CC}','\u{03CD}','\u{03CE}','�',
];

const ENCODE_TABLE: [(char, u8); 125] = [
    ('\u{0080}', 0x80), ('\u{0081}', 0x81), ('\u{0082}', 0x82), ('\u{0083}', 0x83), 
    ('\u{0084}', 0x84), ('\u{0085}', 0x85), ('\u{0086}', 0x86), ('\u{0087}', 0x87), 
    ('\u{0088}', 0x88), ('\u{0089}', 0x89), ('\u{008A}', 0x8A), ('\u{008B}', 0x8B), 
    ('\u{008C}', 0x8C), ('\u{008D}', 0x8D), ('\u{008E}', 0x8E), ('\u{008F}', 0x8F), 
    ('\u{0090}', 0x90), ('\u{0091}', 0x91), ('\u{0092}', 0x92), ('\u{0093}', 0x93), 
    ('\u{0094}', 0x94), ('\u{0095}', 0x95), ('\u{0096}', 0x96), ('\u{0097}', 0x97), 
    ('\u{0098}', 0x98), ('\u{0099}', 0x99), ('\u{009A}', 0x9A), ('\u{009B}', 0x9B), 
    ('\u{009C}', 0x9C), ('\u{009D}', 0x9D), ('\u{009E}', 0x9E), ('\u{009F}', 0x9F), 
    ('\u{00A0}', 0xA0), ('\u{00A3}', 0xA3), ('\u{00A6}', 0xA6), ('\u{00A7}', 0xA7), 
    ('\u{00A8}', 0xA8), ('\u{00A9}', 0xA9), ('\u{00AB}', 0xAB), ('\u{00AC}', 0xAC), 
    ('\u{00AD}', 0xAD), ('\u{00B0}', 0xB0), ('\u{00B1}', 0xB1), ('\u{00B2}', 0xB2), 
    ('\u{00B3}', 0xB3), ('\u{00B7}', 0xB7), ('\u{00BB}', 0xBB), ('\u{00BD}', 0xBD), 
    ('\u{037A}', 0xAA), ('\u{0384}', 0xB4), ('\u{0385}', 0xB5), ('\u{0386}', 0xB6), 
    ('\u{0388}', 0xB8), ('\u{0389}', 0xB9), ('\u{038A}', 0xBA), ('\u{038C}', 0xBC), 
    ('\u{038E}', 0xBE), ('\u{038F}', 0xBF), ('\u{0390}', 0xC0), ('\u{0391}', 0xC1), 
    ('\u{0392}', 0xC2), ('\u{0393}', 0xC3), ('\u{0394}', 0xC4), ('\u{0395}', 0xC5), 
    ('\u{0396}', 0xC6), ('\u{0397}', 0xC7), ('\u{0398}', 0xC8), ('\u{0399}', 0xC9), 
    ('\u{039A}', 0xCA), ('\u{039B}', 0xCB), ('\u{039C}', 0xCC), ('\u{039D}', 0xCD), 
    ('\u{039E}', 0xCE), ('\u{039F}', 0xCF), ('\u{03A0}', 0xD0), ('\u{03A1}', 0xD1), 
    ('\u{03A3}', 0xD3), ('\u{03A4}', 0xD4), ('\u{03A5}', 0xD5), ('\u{03A6}', 0xD6), 
    ('\u{03A7}', 0xD7), ('\u{03A8}', 0xD8), ('\u{03A9}', 0xD9), ('\u{03AA}', 0xDA), 
    ('\u{03AB}', 0xDB), ('\u{03AC}', 0xDC), ('\u{03AD}', 0xDD), ('\u{03AE}', 0xDE), 
    ('\u{03AF}', 0xDF), ('\u{03B0}', 0xE0), ('\u{03B1}', 0xE1), ('\u{03B2}', 0xE2), 
    ('\u{03B3}', 0xE3), ('\u{03B4}', 0xE4), ('\u{03B5}', 0xE5), ('\u{03B6}', 0xE6), 
    ('\u{03B7}', 0xE7), ('\u{03B8}', 0xE8), ('\u{03B9}', 0xE9), ('\u{03BA}', 0xEA), 
    ('\u{03BB}', 0xEB), ('\u{03BC}', 0xEC), ('\u{03BD}', 0xED), ('\u{03BE}', 0xEE), 
    ('\u{03BF}', 0xEF), ('\u{03C0}', 0xF0), ('\u{03C1}', 0xF1), ('\u{03C2}', 0xF2), 
    ('\u{03C3}', 0xF3), ('\u{03C4}', 0xF4), ('\u{03C5}', 0xF5), ('\u{03C6}', 0xF6), 
    ('\u{03C7}', 0xF7), ('\u{03C8}', 0xF8), ('\u{03C9}', 0xF9), ('\u{03CA}', 0xFA), 
    ('\u{03CB}', 0xFB), ('\u{03CC}', 0xFC), ('\u{03CD}', 0xFD), ('\u{03CE}', 0xFE), 
    ('\u{2015}', 0xAF), ('\u{2018}', 0xA1), ('\u{2019}', 0xA2), ('\u{20AC}', 0xA4), 
    ('\u{20AF}', 0xA5), 
];
"#

/-- encoding_tables/single_byte/ascii_ext/iso-8859-8.txt:1-259 -/
noncomputable def iso_8859_8_mapping : List Text := lines! r#"# 8859-8.TXT
# Date: 2015-12-02 21:50:00 GMT [KW]
# © 2015 Unicode®, Inc.
# For terms of use, see http://www.unicode.org/terms_of_use.html
#
#	Name:             ISO/IEC 8859-8:1999 to Unicode
#	Unicode version:  3.0
#	Table version:    2.0
#	Table format:     Format A
#	Date:             2000-Jan-03 (header updated: 2015 December 02)
#	Authors:          Ken Whistler <ken@unicode.org>
#
#	General notes:
#
#	This table contains the data the Unicode Consortium has on how
#       ISO/IEC 8859-8:1999 characters map into Unicode.
#
#	Format:  Three tab-separated columns
#		 Column #1 is the ISO/IEC 8859-8 code (in hex as 0xXX)
#		 Column #2 is the Unicode (in hex as 0xXXXX)
#		 Column #3 the Unicode name (follows a comment sign, '#')
#
#	The entries are in ISO/IEC 8859-8 order.
#
#	Version history
#	1.0 version updates 0.1 version by adding mappings for all
#	control characters.
#   1.1 version updates to the published 8859-8:1999, correcting
#          the mapping of 0xAF and adding mappings for LRM and RLM.
#   2.0 version: updates to copyright notice and terms of use; no
#       changes to character mappings
#
#	Updated versions of this file may be found in:
#		http://www.unicode.org/Public/MAPPINGS/
#
#	Any comments or problems, contact us at:
#       http://www.unicode.org/reporting.html
#
0x00	0x0000	#	NULL
0x01	0x0001	#	START OF HEADING
0x02	0x0002	#	START OF TEXT
0x03	0x0003	#	END OF TEXT
0x04	0x0004	#	END OF TRANSMISSION
0x05	0x0005	#	ENQUIRY
0x06	0x0006	#	ACKNOWLEDGE
0x07	0x0007	#	BELL
0x08	0x0008	#	BACKSPACE
0x09	0x0009	#	HORIZONTAL TABULATION
0x0A	0x000A	#	LINE FEED
0x0B	0x000B	#	VERTICAL TABULATION
0x0C	0x000C	#	FORM FEED
0x0D	0x000D	#	CARRIAGE RETURN
0x0E	0x000E	#	SHIFT OUT
0x0F	0x000F	#	SHIFT IN
0x10	0x0010	#	DATA LINK ESCAPE
0x11	0x0011	#	DEVICE CONTROL ONE
0x12	0x0012	#	DEVICE CONTROL TWO
0x13	0x0013	#	DEVICE CONTROL THREE
0x14	0x0014	#	DEVICE CONTROL FOUR
0x15	0x0015	#	NEGATIVE ACKNOWLEDGE
0x16	0x0016	#	SYNCHRONOUS IDLE
0x17	0x0017	#	END OF TRANSMISSION BLOCK
0x18	0x0018	#	CANCEL
0x19	0x0019	#	END OF MEDIUM
0x1A	0x001A	#	SUBSTITUTE
0x1B	0x001B	#	ESCAPE
0x1C	0x001C	#	FILE SEPARATOR
0x1D	0x001D	#	GROUP SEPARATOR
0x1E	0x001E	#	RECORD SEPARATOR
0x1F	0x001F	#	UNIT SEPARATOR
0x20	0x0020	#	SPACE
0x21	0x0021	#	EXCLAMATION MARK
0x22	0x0022	#	QUOTATION MARK
0x23	0x0023	#	NUMBER SIGN
0x24	0x0024	#	DOLLAR SIGN
0x25	0x0025	#	PERCENT SIGN
0x26	0x0026	#	AMPERSAND
0x27	0x0027	#	APOSTROPHE
0x28	0x0028	#	LEFT PARENTHESIS
0x29	0x0029	#	RIGHT PARENTHESIS
0x2A	0x002A	#	ASTERISK
0x2B	0x002B	#	PLUS SIGN
0x2C	0x002C	#	COMMA
0x2D	0x002D	#	HYPHEN-MINUS
0x2E	0x002E	#	FULL STOP
0x2F	0x002F	#	SOLIDUS
0x30	0x0030	#	DIGIT ZERO
0x31	0x0031	#	DIGIT ONE
0x32	0x0032	#	DIGIT TWO
0x33	0x0033	#	DIGIT THREE
0x34	0x0034	#	DIGIT FOUR
0x35	0x0035	#	DIGIT FIVE
0x36	0x0036	#	DIGIT SIX
0x37	0x0037	#	DIGIT SEVEN
0x38	0x0038	#	DIGIT EIGHT
0x39	0x0039	#	DIGIT NINE
0x3A	0x003A	#	COLON
0x3B	0x003B	#	SEMICOLON
0x3C	0x003C	#	LESS-THAN SIGN
0x3D	0x003D	#	EQUALS SIGN
0x3E	0x003E	#	GREATER-THAN SIGN
0x3F	0x003F	#	QUESTION MARK
0x40	0x0040	#	COMMERCIAL AT
0x41	0x0041	#	LATIN CAPITAL LETTER A
0x42	0x0042	#	LATIN CAPITAL LETTER B
0x43	0x0043	#	LATIN CAPITAL LETTER C
0x44	0x0044	#	LATIN CAPITAL LETTER D
0x45	0x0045	#	LATIN CAPITAL LETTER E
0x46	0x0046	#	LATIN CAPITAL LETTER F
0x47	0x0047	#	LATIN CAPITAL LETTER G
0x48	0x0048	#	LATIN CAPITAL LETTER H
0x49	0x0049	#	LATIN CAPITAL LETTER I
0x4A	0x004A	#	LATIN CAPITAL LETTER J
0x4B	0x004B	#	LATIN CAPITAL LETTER K
0x4C	0x004C	#	LATIN CAPITAL LETTER L
0x4D	0x004D	#	LATIN CAPITAL LETTER M
0x4E	0x004E	#	LATIN CAPITAL LETTER N
0x4F	0x004F	#	LATIN CAPITAL LETTER O
0x50	0x0050	#	LATIN CAPITAL LETTER P
0x51	0x0051	#	LATIN CAPITAL LETTER Q
0x52	0x0052	#	LATIN CAPITAL LETTER R
0x53	0x0053	#	LATIN CAPITAL LETTER S
0x54	0x0054	#	LATIN CAPITAL LETTER T
0x55	0x0055	#	LATIN CAPITAL LETTER U
0x56	0x0056	#	LATIN CAPITAL LETTER V
0x57	0x0057	#	LATIN CAPITAL LETTER W
0x58	0x0058	#	LATIN CAPITAL LETTER X
0x59	0x0059	#	LATIN CAPITAL LETTER Y
0x5A	0x005A	#	LATIN CAPITAL LETTER Z
0x5B	0x005B	#	LEFT SQUARE BRACKET
0x5C	0x005C	#	REVERSE SOLIDUS
0x5D	0x005D	#	RIGHT SQUARE BRACKET
0x5E	0x005E	#	CIRCUMFLEX ACCENT
0x5F	0x005F	#	LOW LINE
0x60	0x0060	#	GRAVE ACCENT
0x61	0x0061	#	LATIN SMALL LETTER A
0x62	0x0062	#	LATIN SMALL LETTER B
0x63	0x0063	#	LATIN SMALL LETTER C
0x64	0x0064	#	LATIN SMALL LETTER D
0x65	0x0065	#	LATIN SMALL LETTER E
0x66	0x0066	#	LATIN SMALL LETTER F
0x67	0x0067	#	LATIN SMALL LETTER G
0x68	0x0068	#	LATIN SMALL LETTER H
0x69	0x0069	#	LATIN SMALL LETTER I
0x6A	0x006A	#	LATIN SMALL LETTER J
0x6B	0x006B	#	LATIN SMALL LETTER K
0x6C	0x006C	#	LATIN SMALL LETTER L
0x6D	0x006D	#	LATIN SMALL LETTER M
0x6E	0x006E	#	LATIN SMALL LETTER N
0x6F	0x006F	#	LATIN SMALL LETTER O
0x70	0x0070	#	LATIN SMALL LETTER P
0x71	0x0071	#	LATIN SMALL LETTER Q
0x72	0x0072	#	LATIN SMALL LETTER R
0x73	0x0073	#	LATIN SMALL LETTER S
0x74	0x0074	#	LATIN SMALL LETTER T
0x75	0x0075	#	LATIN SMALL LETTER U
0x76	0x0076	#	LATIN SMALL LETTER V
0x77	0x0077	#	LATIN SMALL LETTER W
0x78	0x0078	#	LATIN SMALL LETTER X
0x79	0x0079	#	LATIN SMALL LETTER Y
0x7A	0x007A	#	LATIN SMALL LETTER Z
0x7B	0x007B	#	LEFT CURLY BRACKET
0x7C	0x007C	#	VERTICAL LINE
0x7D	0x007D	#	RIGHT CURLY BRACKET
0x7E	0x007E	#	TILDE
0x7F	0x007F	#	DELETE
0x80	0x0080	#	<control>
0x81	0x0081	#	<control>
0x82	0x0082	#	<control>
0x83	0x0083	#	<control>
0x84	0x0084	#	<control>
0x85	0x0085	#	<control>
0x86	0x0086	#	<control>
0x87	0x0087	#	<control>
0x88	0x0088	#	<control>
0x89	0x0089	#	<control>
0x8A	0x008A	#	<control>
0x8B	0x008B	#	<control>
0x8C	0x008C	#	<control>
0x8D	0x008D	#	<control>
0x8E	0x008E	#	<control>
0x8F	0x008F	#	<control>
0x90	0x0090	#	<control>
0x91	0x0091	#	<control>
0x92	0x0092	#	<control>
0x93	0x0093	#	<control>
0x94	0x0094	#	<control>
0x95	0x0095	#	<control>
0x96	0x0096	#	<control>
0x97	0x0097	#	<control>
0x98	0x0098	#	<control>
0x99	0x0099	#	<control>
0x9A	0x009A	#	<control>
0x9B	0x009B	#	<control>
0x9C	0x009C	#	<control>
0x9D	0x009D	#	<control>
0x9E	0x009E	#	<control>
0x9F	0x009F	#	<control>
0xA0	0x00A0	#	NO-BREAK SPACE
0xA2	0x00A2	#	CENT SIGN
0xA3	0x00A3	#	POUND SIGN
0xA4	0x00A4	#	CURRENCY SIGN
0xA5	0x00A5	#	YEN SIGN
0xA6	0x00A6	#	BROKEN BAR
0xA7	0x00A7	#	SECTION SIGN
0xA8	0x00A8	#	DIAERESIS
0xA9	0x00A9	#	COPYRIGHT SIGN
0xAA	0x00D7	#	MULTIPLICATION SIGN
0xAB	0x00AB	#	LEFT-POINTING DOUBLE ANGLE QUOTATION MARK
0xAC	0x00AC	#	NOT SIGN
0xAD	0x00AD	#	SOFT HYPHEN
0xAE	0x00AE	#	REGISTERED SIGN
0xAF	0x00AF	#	MACRON
0xB0	0x00B0	#	DEGREE SIGN
0xB1	0x00B1	#	PLUS-MINUS SIGN
0xB2	0x00B2	#	SUPERSCRIPT TWO
0xB3	0x00B3	#	SUPERSCRIPT THREE
0xB4	0x00B4	#	ACUTE ACCENT
0xB5	0x00B5	#	MICRO SIGN
0xB6	0x00B6	#	PILCROW SIGN
0xB7	0x00B7	#	MIDDLE DOT
0xB8	0x00B8	#	CEDILLA
0xB9	0x00B9	#	SUPERSCRIPT ONE
0xBA	0x00F7	#	DIVISION SIGN
0xBB	0x00BB	#	RIGHT-POINTING DOUBLE ANGLE QUOTATION MARK
0xBC	0x00BC	#	VULGAR FRACTION ONE QUARTER
0xBD	0x00BD	#	VULGAR FRACTION ONE HALF
0xBE	0x00BE	#	VULGAR FRACTION THREE QUARTERS
0xDF	0x2017	#	DOUBLE LOW LINE
0xE0	0x05D0	#	HEBREW LETTER ALEF
0xE1	0x05D1	#	HEBREW LETTER BET
0xE2	0x05D2	#	HEBREW LETTER GIMEL
0xE3	0x05D3	#	HEBREW LETTER DALET
0xE4	0x05D4	#	HEBREW LETTER HE
0xE5	0x05D5	#	HEBREW LETTER VAV
0xE6	0x05D6	#	HEBREW LETTER ZAYIN
0xE7	0x05D7	#	HEBREW LETTER HET
0xE8	0x05D8	#	HEBREW LETTER TET
0xE9	0x05D9	#	HEBREW LETTER YOD
0xEA	0x05DA	#	HEBREW LETTER FINAL KAF
0xEB	0x05DB	#	HEBREW LETTER KAF
0xEC	0x05DC	#	HEBREW LETTER LAMED
0xED	0x05DD	#	HEBREW LETTER FINAL MEM
0xEE	0x05DE	#	HEBREW LETTER MEM
0xEF	0x05DF	#	HEBREW LETTER FINAL NUN
0xF0	0x05E0	#	HEBREW LETTER NUN
0xF1	0x05E1	#	HEBREW LETTER SAMEKH
0xF2	0x05E2	#	HEBREW LETTER AYIN
0xF3	0x05E3	#	HEBREW LETTER FINAL PE
0xF4	0x05E4	#	HEBREW LETTER PE
0xF5	0x05E5	#	HEBREW LETTER FINAL TSADI
0xF6	0x05E6	#	HEBREW LETTER TSADI
0xF7	0x05E7	#	HEBREW LETTER QOF
0xF8	0x05E8	#	HEBREW LETTER RESH
0xF9	0x05E9	#	HEBREW LETTER SHIN
0xFA	0x05EA	#	HEBREW LETTER TAV
0xFD	0x200E	#	LEFT-TO-RIGHT MARK
0xFE	0x200F	#	RIGHT-TO-LEFT MARK

"#

/-- src/generated/single_byte/iso-8859-8_tables.rs.inc:1-63 -/
noncomputable def iso_8859_8_source : List Text := lines! r#"// This file is auto-generated.  Please see `encoding_tables/single_byte/`
// from the root directory for the files that generate this.

use {DecodeResult, EncodeResult};

pub fn decode_to_str<'a>(
    input: &[u8],
    out_buffer: &'a mut [u8],
) -> DecodeResult<'a> {
    super::ascii_ext_decode_to_str(&DECODE_TABLE, input, out_buffer)
}

pub fn encode_from_str<'a>(
    input: &str,
    out_buffer: &'a mut [u8],
) -> EncodeResult<'a> {
    super::ascii_ext_encode_from_str(&ENCODE_TABLE, input, out_buffer)
}

const DECODE_TABLE: [char; 128] = [
    '\u{0080}','\u{0081}','\u{0082}','\u{0083}','\u{0084}','\u{0085}','\u{0086}','\u{0087}',
    '\u{0088}','\u{0089}','\u{008A}','\u{008B}','\u{008C}','\u{008D}','\u{008E}','\u{008F}',
    '\u{0090}','\u{0091}','\u{0092}','\u{0093}','\u{0094}','\u{0095}','\u{0096}','\u{0097}',
    '\u{0098}','\u{0099}','\u{009A}','\u{009B}','\u{009C}','\u{009D}','\u{009E}','\u{009F}',
    '\u{00A0}','�','\u{00A2}','\u{00A3}','\u{00A4}','\u{00A5}','\u{00A6}','\u{00A7}',
    '\u{00A8}','\u{00A9}','\u{00D7}','\u{00AB}','\u{00AC}','\u{00AD}','\u{00AE}','\u{00AF}',
    '\u{00B0}','\u{00B1}','\u{00B2}','\u{00B3}','\u{00B4}','\u{00B5}','\u{00B6}','\u{00B7}',
    '\u{00B8}','\u{00B9}','\u{00F7}','\u{00BB}','\u{00BC}','\u{00BD}','\u{00BE}','�',
    '�','�','�','�','�','�','�','�',
    '�','�','�','�','�','�','�','�',
    '�','�','�','�','�','�','�','�',
    '�','�','�','�','�','�','�','\u{2017}',
    '\u{05D0}','\u{05D1}','\u{05D2}','\u{05D3}','\u{05D4}','\u{05D5}','\u{05D6}','\u{05D7}',
    '\u{05D8}','\u{05D9}','\u{05DA}','\u{05DB}','\u{05DC}','\u{05DD}','\u{05DE}','\u{05DF}',
    '\u{05E0}','\u{05E1}','\u{05E2}','\u{05E3}','\u{05E4}','\u{05E5}','\u{05E6}','\u{05E7}',
    '\u{05E8}','\u{05E9}','\u{05EA}','�','�','\u{200E}','\u{200F}','�',
];

const ENCODE_TABLE: [(char, u8); 92] = [
    ('\u{0080}', 0x80), ('\u{0081}', 0x81), ('\u{0082}', 0x82), ('\u{0083}', 0x83), 
    ('\u{0084}', 0x84), ('\u{0085}', 0x85), ('\u{0086}', 0x86), ('\u{0087}', 0x87), 
    ('\u{0088}', 0x88), ('\u{0089}', 0x89), ('\u{008A}', 0x8A), ('\u{008B}', 0x8B), 
    ('\u{008C}', 0x8C), ('\u{008D}', 0x8D), ('\u{008E}', 0x8E), ('\u{008F}', 0x8F), 
    ('\u{0090}', 0x90), ('\u{0091}', 0x91), ('\u{0092}', 0x92), ('\u{0093}', 0x93), 
    ('\u{0094}', 0x94), ('\u{0095}', 0x95), ('\u{0096}', 0x96), ('\u{0097}', 0x97), 
    ('\u{0098}', 0x98), ('\u{0099}', 0x99), ('\u{009A}', 0x9A), ('\u{009B}', 0x9B), 
    ('\u{009C}', 0x9C), ('\u{009D}', 0x9D), ('\u{009E}', 0x9E), ('\u{009F}', 0x9F), 
    ('\u{00A0}', 0xA0), ('\u{00A2}', 0xA2), ('\u{00A3}', 0xA3), ('\u{00A4}', 0xA4), 
    ('\u{00A5}', 0xA5), ('\u{00A6}', 0xA6), ('\u{00A7}', 0xA7), ('\u{00A8}', 0xA8), 
    ('\u{00A9}', 0xA9), ('\u{00AB}', 0xAB), ('\u{00AC}', 0xAC), ('\u{00AD}', 0xAD), 
    ('\u{00AE}', 0xAE), ('\u{00AF}', 0xAF), ('\u{00B0}', 0xB0), ('\u{00B1}', 0xB1), 
    ('\u{00B2}', 0xB2), ('\u{00B3}', 0xB3), ('\u{00B4}', 0xB4), ('\u{00B5}', 0xB5), 
    ('\u{00B6}', 0xB6), ('\u{00B7}', 0xB7), ('\u{00B8}', 0xB8), ('\u{00B9}', 0xB9), 
    ('\u{00BB}', 0xBB), ('\u{00BC}', 0xBC), ('\u{00BD}', 0xBD), ('\u{00BE}', 0xBE), 
    ('\u{00D7}', 0xAA), ('\u{00F7}', 0xBA), ('\u{05D0}', 0xE0), ('\u{05D1}', 0xE1), 
    ('\u{05D2}', 0xE2), ('\u{05D3}', 0xE3), ('\u{05D4}', 0xE4), ('\u{05D5}', 0xE5), 
    ('\u{05D6}', 0xE6), ('\u{05D7}', 0xE7), ('\u{05D8}', 0xE8), ('\u{05D9}', 0xE9), 
    ('\u{05DA}', 0xEA), ('\u{05DB}', 0xEB), ('\u{05DC}', 0xEC), ('\u{05DD}', 0xED), 
    ('\u{05DE}', 0xEE), ('\u{05DF}', 0xEF), ('\u{05E0}', 0xF0), ('\u{05E1}', 0xF1), 
    ('\u{05E2}', 0xF2), ('\u{05E3}', 0xF3), ('\u{05E4}', 0xF4), ('\u{05E5}', 0xF5), 
    ('\u{05E6}', 0xF6), ('\u{05E7}', 0xF7), ('\u{05E8}', 0xF8), ('\u{05E9}', 0xF9), 
    ('\u{05EA}', 0xFA), ('\u{200E}', 0xFD), ('\u{200F}', 0xFE), ('\u{2017}', 0xDF), 
];
"#

/-- encoding_tables/single_byte/ascii_ext/iso-8859-9.txt:1-296 -/
noncomputable def iso_8859_9_mapping : List Text := lines! r#"# 8859-9.TXT
# Date: 2015-12-02 21:51:00 GMT [KW]
# © 2015 Unicode®, Inc.
# For terms of use, see http://www.unicode.org/terms_of_use.html
#
#	Name:             ISO/IEC 8859-9:1999 to Unicode
#	Unicode version:  3.0
#	Table version:    2.0
#	Table format:     Format A
#	Date:             1999 July 27 (header updated: 2015 December 02)
#	Authors:          Ken Whistler <ken@unicode.org>
#
#	General notes:
#
#	This table contains the data the Unicode Consortium has on how
#       ISO/IEC 8859-9:1999 characters map into Unicode.
#
#	Format:  Three tab-separated columns
#		 Column #1 is the ISO/IEC 8859-9 code (in hex as 0xXX)
#		 Column #2 is the Unicode (in hex as 0xXXXX)
#		 Column #3 the Unicode name (follows a comment sign, '#')
#
#	The entries are in ISO/IEC 8859-9 order.
#
#	ISO/IEC 8859-9 is also equivalent to ISO-IR-148.
#
#	Version history
#   1.0 version: updates 0.1 version by adding mappings for all
#       control characters.
#   2.0 version: updates to copyright notice and terms of use; no
#       changes to character mappings
#
#	Updated versions of this file may be found in:
#		http://www.unicode.org/Public/MAPPINGS/
#
#	Any comments or problems, contact us at:
#       http://www.unicode.org/reporting.html
#
0x00	0x0000	#	NULL
0x01	0x0001	#	START OF HEADING
0x02	0x0002	#	START OF TEXT
0x03	0x0003	#	END OF TEXT
0x04	0x0004	#	END OF TRANSMISSION
0x05	0x0005	#	ENQUIRY
0x06	0x0006	#	ACKNOWLEDGE
0x07	0x0007	#	BELL
0x08	0x0008	#	BACKSPACE
0x09	0x0009	#	HORIZONTAL TABULATION
0x0A	0x000A	#	LINE FEED
0x0B	0x000B	#	VERTICAL TABULATION
0x0C	0x000C	#	FORM FEED
0x0D	0x000D	#	CARRIAGE RETURN
0x0E	0x000E	#	SHIFT OUT
0x0F	0x000F	#	SHIFT IN
0x10	0x0010	#	DATA LINK ESCAPE
0x11	0x0011	#	DEVICE CONTROL ONE
0x12	0x0012	#	DEVICE CONTROL TWO
0x13	0x0013	#	DEVICE CONTROL THREE
0x14	0x0014	#	DEVICE CONTROL FOUR
0x15	0x0015	#	NEGATIVE ACKNOWLEDGE
0x16	0x0016	#	SYNCHRONOUS IDLE
0x17	0x0017	#	END OF TRANSMISSION BLOCK
0x18	0x0018	#	CANCEL
0x19	0x0019	#	END OF MEDIUM
0x1A	0x001A	#	SUBSTITUTE
0x1B	0x001B	#	ESCAPE
0x1C	0x001C	#	FILE SEPARATOR
0x1D	0x001D	#	GROUP SEPARATOR
0x1E	0x001E	#	RECORD SEPARATOR
0x1F	0x001F	#	UNIT SEPARATOR
0x20	0x0020	#	SPACE
0x21	0x0021	#	EXCLAMATION MARK
0x22	0x0022	#	QUOTATION MARK
0x23	0x0023	#	NUMBER SIGN
0x24	0x0024	#	DOLLAR SIGN
0x25	0x0025	#	PERCENT SIGN
0x26	0x0026	#	AMPERSAND
0x27	0x0027	#	APOSTROPHE
0x28	0x0028	#	LEFT PARENTHESIS
0x29	0x0029	#	RIGHT PARENTHESIS
0x2A	0x002A	#	ASTERISK
0x2B	0x002B	#	PLUS SIGN
0x2C	0x002C	#	COMMA
0x2D	0x002D	#	HYPHEN-MINUS
0x2E	0x002E	#	FULL STOP
0x2F	0x002F	#	SOLIDUS
0x30	0x0030	#	DIGIT ZERO
0x31	0x0031	#	DIGIT ONE
0x32	0x0032	#	DIGIT TWO
0x33	0x0033	#	DIGIT THREE
0x34	0x0034	#	DIGIT FOUR
0x35	0x0035	#	DIGIT FIVE
0x36	0x0036	#	DIGIT SIX
0x37	0x0037	#	DIGIT SEVEN
0x38	0x0038	#	DIGIT EIGHT
0x39	0x0039	#	DIGIT NINE
0x3A	0x003A	#	COLON
0x3B	0x003B	#	SEMICOLON
0x3C	0x003C	#	LESS-THAN SIGN
0x3D	0x003D	#	EQUALS SIGN
0x3E	0x003E	#	GREATER-THAN SIGN
0x3F	0x003F	#	QUESTION MARK
0x40	0x0040	#	COMMERCIAL AT
0x41	0x0041	#	LATIN CAPITAL LETTER A
0x42	0x0042	#	LATIN CAPITAL LETTER B
0x43	0x0043	#	LATIN CAPITAL LETTER C
0x44	0x0044	#	LATIN CAPITAL LETTER D
0x45	0x0045	#	LATIN CAPITAL LETTER E
0x46	0x0046	#	LATIN CAPITAL LETTER F
0x47	0x0047	#	LATIN CAPITAL LETTER G
0x48	0x0048	#	LATIN CAPITAL LETTER H
0x49	0x0049	#	LATIN CAPITAL LETTER I
0x4A	0x004A	#	LATIN CAPITAL LETTER J
0x4B	0x004B	#	LATIN CAPITAL LETTER K
0x4C	0x004C	#	LATIN CAPITAL LETTER L
0x4D	0x004D	#	LATIN CAPITAL LETTER M
0x4E	0x004E	#	LATIN CAPITAL LETTER N
0x4F	0x004F	#	LATIN CAPITAL LETTER O
0x50	0x0050	#	LATIN CAPITAL LETTER P
0x51	0x0051	#	LATIN CAPITAL LETTER Q
0x52	0x0052	#	LATIN CAPITAL LETTER R
0x53	0x0053	#	LATIN CAPITAL LETTER S
0x54	0x0054	#	LATIN CAPITAL LETTER T
0x55	0x0055	#	LATIN CAPITAL LETTER U
0x56	0x0056	#	LATIN CAPITAL LETTER V
0x57	0x0057	#	LATIN CAPITAL LETTER W
0x58	0x0058	#	LATIN CAPITAL LETTER X
0x59	0x0059	#	LATIN CAPITAL LETTER Y
0x5A	0x005A	#	LATIN CAPITAL LETTER Z
0x5B	0x005B	#	LEFT SQUARE BRACKET
0x5C	0x005C	#	REVERSE SOLIDUS
0x5D	0x005D	#	RIGHT SQUARE BRACKET
0x5E	0x005E	#	CIRCUMFLEX ACCENT
0x5F	0x005F	#	LOW LINE
0x60	0x0060	#	GRAVE ACCENT
0x61	0x0061	#	LATIN SMALL LETTER A
0x62	0x0062	#	LATIN SMALL LETTER B
0x63	0x0063	#	LATIN SMALL LETTER C
0x64	0x0064	#	LATIN SMALL LETTER D
0x65	0x0065	#	LATIN SMALL LETTER E
0x66	0x0066	#	LATIN SMALL LETTER F
0x67	0x0067	#	LATIN SMALL LETTER G
0x68	0x0068	#	LATIN SMALL LETTER H
0x69	0x0069	#	LATIN SMALL LETTER I
0x6A	0x006A	#	LATIN SMALL LETTER J
0x6B	0x006B	#	LATIN SMALL LETTER K
0x6C	0x006C	#	LATIN SMALL LETTER L
0x6D	0x006D	#	LATIN SMALL LETTER M
0x6E	0x006E	#	LATIN SMALL LETTER N
0x6F	0x006F	#	LATIN SMALL LETTER O
0x70	0x0070	#	LATIN SMALL LETTER P
0x71	0x0071	#	LATIN SMALL LETTER Q
0x72	0x0072	#	LATIN SMALL LETTER R
0x73	0x0073	#	LATIN SMALL LETTER S
0x74	0x0074	#	LATIN SMALL LETTER T
0x75	0x0075	#	LATIN SMALL LETTER U
0x76	0x0076	#	LATIN SMALL LETTER V
0x77	0x0077	#	LATIN SMALL LETTER W
0x78	0x0078	#	LATIN SMALL LETTER X
0x79	0x0079	#	LATIN SMALL LETTER Y
0x7A	0x007A	#	LATIN SMALL LETTER Z
0x7B	0x007B	#	LEFT CURLY BRACKET
0x7C	0x007C	#	VERTICAL LINE
0x7D	0x007D	#	RIGHT CURLY BRACKET
0x7E	0x007E	#	TILDE
0x7F	0x007F	#	DELETE
0x80	0x0080	#	<control>
0x81	0x0081	#	<control>
0x82	0x0082	#	<control>
0x83	0x0083	#	<control>
0x84	0x0084	#	<control>
0x85	0x0085	#	<control>
0x86	0x0086	#	<control>
0x87	0x0087	#	<control>
0x88	0x0088	#	<control>
0x89	0x0089	#	<control>
0x8A	0x008A	#	<control>
0x8B	0x008B	#	<control>
0x8C	0x008C	#	<control>
0x8D	0x008D	#	<control>
0x8E	0x008E	#	<control>
0x8F	0x008F	#	<control>
0x90	0x0090	#	<control>
0x91	0x0091	#	<control>
0x92	0x0092	#	<control>
0x93	0x0093	#	<control>
0x94	0x0094	#	<control>
0x95	0x0095	#	<control>
0x96	0x0096	#	<control>
0x97	0x0097	#	<control>
0x98	0x0098	#	<control>
0x99	0x0099	#	<control>
0x9A	0x009A	#	<control>
0x9B	0x009B	#	<control>
0x9C	0x009C	#	<control>
0x9D	0x009D	#	<control>
0x9E	0x009E	#	<control>
0x9F	0x009F	#	<control>
0xA0	0x00A0	#	NO-BREAK SPACE
0xA1	0x00A1	#	INVERTED EXCLAMATION MARK
0xA2	0x00A2	#	CENT SIGN
0xA3	0x00A3	#	POUND SIGN
0xA4	0x00A4	#	CURRENCY SIGN
0xA5	0x00A5	#	YEN SIGN
0xA6	0x00A6	#	BROKEN BAR
0xA7	0x00A7	#	SECTION SIGN
0xA8	0x00A8	#	DIAERESIS
0xA9	0x00A9	#	COPYRIGHT SIGN
0xAA	0x00AA	#	FEMININE ORDINAL INDICATOR
0xAB	0x00AB	#	LEFT-POINTING DOUBLE ANGLE QUOTATION MARK
0xAC	0x00AC	#	NOT SIGN
0xAD	0x00AD	#	SOFT HYPHEN
0xAE	0x00AE	#	REGISTERED SIGN
0xAF	0x00AF	#	MACRON
0xB0	0x00B0	#	DEGREE SIGN
0xB1	0x00B1	#	PLUS-MINUS SIGN
0xB2	0x00B2	#	SUPERSCRIPT TWO
0xB3	0x00B3	#	SUPERSCRIPT THREE
0xB4	0x00B4	#	ACUTE ACCENT
0xB5	0x00B5	#	MICRO SIGN
0xB6	0x00B6	#	PILCROW SIGN
0xB7	0x00B7	#	MIDDLE DOT
0xB8	0x00B8	#	CEDILLA
0xB9	0x00B9	#	SUPERSCRIPT ONE
0xBA	0x00BA	#	MASCULINE ORDINAL INDICATOR
0xBB	0x00BB	#	RIGHT-POINTING DOUBLE ANGLE QUOTATION MARK
0xBC	0x00BC	#	VULGAR FRACTION ONE QUARTER
0xBD	0x00BD	#	VULGAR FRACTION ONE HALF
0xBE	0x00BE	#	VULGAR FRACTION THREE QUARTERS
0xBF	0x00BF	#	INVERTED QUESTION MARK
0xC0	0x00C0	#	LATIN CAPITAL LETTER A WITH GRAVE
0xC1	0x00C1	#	LATIN CAPITAL LETTER A WITH ACUTE
0xC2	0x00C2	#	LATIN CAPITAL LETTER A WITH CIRCUMFLEX
0xC3	0x00C3	#	LATIN CAPITAL LETTER A WITH TILDE
0xC4	0x00C4	#	LATIN CAPITAL LETTER A WITH DIAERESIS
0xC5	0x00C5	#	LATIN CAPITAL LETTER A WITH RING ABOVE
0xC6	0x00C6	#	LATIN CAPITAL LETTER AE
0xC7	0x00C7	#	LATIN CAPITAL LETTER C WITH CEDILLA
0xC8	0x00C8	#	LATIN CAPITAL LETTER E WITH GRAVE
0xC9	0x00C9	#	LATIN CAPITAL LETTER E WITH ACUTE
0xCA	0x00CA	#	LATIN CAPITAL LETTER E WITH CIRCUMFLEX
0xCB	0x00CB	#	LATIN CAPITAL LETTER E WITH DIAERESIS
0xCC	0x00CC	#	LATIN CAPITAL LETTER I WITH GRAVE
0xCD	0x00CD	#	LATIN CAPITAL LETTER I WITH ACUTE
0xCE	0x00CE	#	LATIN CAPITAL LETTER I WITH CIRCUMFLEX
0xCF	0x00CF	#	LATIN CAPITAL LETTER I WITH DIAERESIS
0xD0	0x011E	#	LATIN CAPITAL LETTER G WITH BREVE
0xD1	0x00D1	#	LATIN CAPITAL LETTER N WITH TILDE
0xD2	0x00D2	#	LATIN CAPITAL LETTER O WITH GRAVE
0xD3	0x00D3	#	LATIN CAPITAL LETTER O WITH ACUTE
0xD4	0x00D4	#	LATIN CAPITAL LETTER O WITH CIRCUMFLEX
0xD5	0x00D5	#	LATIN CAPITAL LETTER O WITH TILDE
0xD6	0x00D6	#	LATIN CAPITAL LETTER O WITH DIAERESIS
0xD7	0x00D7	#	MULTIPLICATION SIGN
0xD8	0x00D8	#	LATIN CAPITAL LETTER O WITH STROKE
0xD9	0x00D9	#	LATIN CAPITAL LETTER U WITH GRAVE
0xDA	0x00DA	#	LATIN CAPITAL LETTER U WITH ACUTE
0xDB	0x00DB	#	LATIN CAPITAL LETTER U WITH CIRCUMFLEX
0xDC	0x00DC	#	LATIN CAPITAL LETTER U WITH DIAERESIS
0xDD	0x0130	#	LATIN CAPITAL LETTER I WITH DOT ABOVE
0xDE	0x015E	#	LATIN CAPITAL LETTER S WITH CEDILLA
0xDF	0x00DF	#	LATIN SMALL LETTER SHARP S
0xE0	0x00E0	#	LATIN SMALL LETTER A WITH GRAVE
0xE1	0x00E1	#	LATIN SMALL LETTER A WITH ACUTE
0xE2	0x00E2	#	LATIN SMALL LETTER A WITH CIRCUMFLEX
0xE3	0x00E3	#	LATIN SMALL LETTER A WITH TILDE
0xE4	0x00E4	#	LATIN SMALL LETTER A WITH DIAERESIS
0xE5	0x00E5	#	LATIN SMALL LETTER A WITH RING ABOVE
0xE6	0x00E6	#	LATIN SMALL LETTER AE
0xE7	0x00E7	#	LATIN SMALL LETTER C WITH CEDILLA
0xE8	0x00E8	#	LATIN SMALL LETTER E WITH GRAVE
0xE9	0x00E9	#	LATIN SMALL LETTER E WITH ACUTE
0xEA	0x00EA	#	LATIN SMALL LETTER E WITH CIRCUMFLEX
0xEB	0x00EB	#	LATIN SMALL LETTER E WITH DIAERESIS
0xEC	0x00EC	#	LATIN SMALL LETTER I WITH GRAVE
0xED	0x00ED	#	LATIN SMALL LETTER I WITH ACUTE
0xEE	0x00EE	#	LATIN SMALL LETTER I WITH CIRCUMFLEX
0xEF	0x00EF	#	LATIN SMALL LETTER I WITH DIAERESIS
0xF0	0x011F	#	LATIN SMALL LETTER G WITH BREVE
0xF1	0x00F1	#	LATIN SMALL LETTER N WITH TILDE
0xF2	0x00F2	#	LATIN SMALL LETTER O WITH GRAVE
0xF3	0x00F3	#	LATIN SMALL LETTER O WITH ACUTE
0xF4	0x00F4	#	LATIN SMALL LETTER O WITH CIRCUMFLEX
0xF5	0x00F5	#	LATIN SMALL LETTER O WITH TILDE
0xF6	0x00F6	#	LATIN SMALL LETTER O WITH DIAERESIS
0xF7	0x00F7	#	DIVISION SIGN
0xF8	0x00F8	#	LATIN SMALL LETTER O WITH STROKE
0xF9	0x00F9	#	LATIN SMALL LETTER U WITH GRAVE
0xFA	0x00FA	#	LATIN SMALL LETTER U WITH ACUTE
0xFB	0x00FB	#	LATIN SMALL LETTER U WITH CIRCUMFLEX
0xFC	0x00FC	#	LATIN SMALL LETTER U WITH DIAERESIS
0xFD	0x0131	#	LATIN SMALL LETTER DOTLESS I
0xFE	0x015F	#	LATIN SMALL LETTER S WITH CEDILLA
0xFF	0x00FF	#	LATIN SMALL LETTER Y WITH DIAERESIS


"#

/-- src/generated/single_byte/iso-8859-9_tables.rs.inc:1-72 -/
noncomputable def iso_8859_9_source : List Text := lines! r#"// This file is auto-generated.  Please see `encoding_tables/single_byte/`
// from the root directory for the files that generate this.

use {DecodeResult, EncodeResult};

pub fn decode_to_str<'a>(
    input: &[u8],
    out_buffer: &'a mut [u8],
) -> DecodeResult<'a> {
    super::ascii_ext_decode_to_str(&DECODE_TABLE, input, out_buffer)
}

pub fn encode_from_str<'a>(
    input: &str,
    out_buffer: &'a mut [u8],
) -> EncodeResult<'a> {
    super::ascii_ext_encode_from_str(&ENCODE_TABLE, input, out_buffer)
}

const DECODE_TABLE: [char; 128] = [
    '\u{0080}','\u{0081}','\u{0082}','\u{0083}','\u{0084}','\u{0085}','\u{0086}','\u{0087}',
    '\u{0088}','\u{0089}','\u{008A}','\u{008B}','\u{008C}','\u{008D}','\u{008E}','\u{008F}',
    '\u{0090}','\u{0091}','\u{0092}','\u{0093}','\u{0094}','\u{0095}','\u{0096}','\u{0097}',
    '\u{0098}','\u{0099}','\u{009A}','\u{009B}','\u{009C}','\u{009D}','\u{009E}','\u{009F}',
    '\u{00A0}','\u{00A1}','\u{00A2}','\u{00A3}','\u{00A4}','\u{00A5}','\u{00A6}','\u{00A7}',
    '\u{00A8}','\u{00A9}','\u{00AA}','\u{00AB}','\u{00AC}','\u{00AD}','\u{00AE}','\u{00AF}',
    '\u{00B0}','\u{00B1}','\u{00B2}','\u{00B3}','\u{00B4}','\u{00B5}','\u{00B6}','\u{00B7}',
    '\u{00B8}','\u{00B9}','\u{00BA}','\u{00BB}','\u{00BC}','\u{00BD}','\u{00BE}','\u{00BF}',
    '\u{00C0}','\u{00C1}','\u{00C2}','\u{00C3}','\u{00C4}','\u{00C5}','\u{00C6}','\u{00C7}',
    '\u{00C8}','\u{00C9}','\u{00CA}','\u{00CB}','\u{00CC}','\u{00CD}','\u{00CE}','\u{00CF}',
    '\u{011E}','\u{00D1}','\u{00D2}','\u{00D3}','\u{00D4}','\u{00D5}','\u{00D6}','\u{00D7}',
    '\u{00D8}','\u{00D9}','\u{00DA}','\u{00DB}','\u{00DC}','\u{0130}','\u{015E}','\u{00DF}',
    '\u{00E0}','\u{00E1}','\u{00E2}','\u{00E3}','\u{00E4}','\u{00E5}','\u{00E6}','\u{00E7}',
    '\u{00E8}','\u{00E9}','\u{00EA}','\u{00EB}','\u{00EC}','\u{00ED}','\u{00EE}','\u{00EF}',
    '\u{011F}','\u{00F1}','\u{00F2}','\u{00F3}','\u{00F4}','\u{00F5}','\u{00F6}','\u{00F7}',
    '\u{00F8}','\u{00F9}','\u{00FA}','\u{00FB}','\u{00FC}','\u{0131}','\u{015F}','\u{00FF}',
];

const ENCODE_TABLE: [(char, u8); 128] = [
    ('\u{0080}', 0x80), ('\u{0081}', 0x81), ('\u{0082}', 0x82), ('\u{0083}', 0x83), 
    ('\u{0084}', 0x84), ('\u{0085}', 0x85), ('\u{0086}', 0x86), ('\u{0087}', 0x87), 
    ('\u{0088}', 0x88), ('\u{0089}', 0x89), ('\u{008A}', 0x8A), ('\u{008B}', 0x8B), 
    ('\u{008C}', 0x8C), ('\u{008D}', 0x8D), ('\u{008E}', 0x8E), ('\u{008F}', 0x8F), 
    ('\u{0090}', 0x90), ('\u{0091}', 0x91), ('\u{0092}', 0x92), ('\u{0093}', 0x93), 
    ('\u{0094}', 0x94), ('\u{0095}', 0x95), ('\u{0096}', 0x96), ('\u{0097}', 0x97), 
    ('\u{0098}', 0x98), ('\u{0099}', 0x99), ('\u{009A}', 0x9A), ('\u{009B}', 0x9B), 
    ('\u{009C}', 0x9C), ('\u{009D}', 0x9D), ('\u{009E}', 0x9E), ('\u{009F}', 0x9F), 
    ('\u{00A0}', 0xA0), ('\u{00A1}', 0xA1), ('\u{00A2}', 0xA2), ('\u{00A3}', 0xA3), 
    ('\u{00A4}', 0xA4), ('\u{00A5}', 0xA5), ('\u{00A6}', 0xA6), ('\u{00A7}', 0xA7), 
    ('\u{00A8}', 0xA8), ('\u{00A9}', 0xA9), ('\u{00AA}', 0xAA), ('\u{00AB}', 0xAB), 
    ('\u{00AC}', 0xAC), ('\u{00AD}', 0xAD), ('\u{00AE}', 0xAE), ('\u{00AF}', 0xAF), 
    ('\u{00B0}', 0xB0), ('\u{00B1}', 0xB1), ('\u{00B2}', 0xB2), ('\u{00B3}', 0xB3), 
    ('\u{00B4}', 0xB4), ('\u{00B5}', 0xB5), ('\u{00B6}', 0xB6), ('\u{00B7}', 0xB7), 
    ('\u{00B8}', 0xB8), ('\u{00B9}', 0xB9), ('\u{00BA}', 0xBA), ('\u{00BB}', 0xBB), 
    ('\u{00BC}', 0xBC), ('\u{00BD}', 0xBD), ('\u{00BE}', 0xBE), ('\u{00BF}', 0xBF), 
    ('\u{00C0}', 0xC0), ('\u{00C1}', 0xC1), ('\u{00C2}', 0xC2), ('\u{00C3}', 0xC3), 
    ('\u{00C4}', 0xC4), ('\u{00C5}', 0xC5), ('\u{00C6}', 0xC6), ('\u{00C7}', 0xC7), 
    ('\u{00C8}', 0xC8), ('\u{00C9}', 0xC9), ('\u{00CA}', 0xCA), ('\u{00CB}', 0xCB), 
    ('\u{00CC}', 0xCC), ('\u{00CD}', 0xCD), ('\u{00CE}', 0xCE), ('\u{00CF}', 0xCF), 
    ('\u{00D1}', 0xD1), ('\u{00D2}', 0xD2), ('\u{00D3}', 0xD3), ('\u{00D4}', 0xD4), 
    ('\u{00D5}', 0xD5), ('\u{00D6}', 0xD6), ('\u{00D7}', 0xD7), ('\u{00D8}', 0xD8), 
    ('\u{00D9}', 0xD9), ('\u{00DA}', 0xDA), ('\u{00DB}', 0xDB), ('\u{00DC}', 0xDC), 
    ('\u{00DF}', 0xDF), ('\u{00E0}', 0xE0), ('\u{00E1}', 0xE1), ('\u{00E2}', 0xE2), 
    ('\u{00E3}', 0xE3), ('\u{00E4}', 0xE4), ('\u{00E5}', 0xE5), ('\u{00E6}', 0xE6), 
    ('\u{00E7}', 0xE7), ('\u{00E8}', 0xE8), ('\u{00E9}', 0xE9), ('\u{00EA}', 0xEA), 
    ('\u{00EB}', 0xEB), ('\u{00EC}', 0xEC), ('\u{00ED}', 0xED), ('\u{00EE}', 0xEE), 
    ('\u{00EF}', 0xEF), ('\u{00F1}', 0xF1), ('\u{00F2}', 0xF2), ('\u{00F3}', 0xF3), 
    ('\u{00F4}', 0xF4), ('\u{00F5}', 0xF5), ('\u{00F6}', 0xF6), ('\u{00F7}', 0xF7), 
    ('\u{00F8}', 0xF8), ('\u{00F9}', 0xF9), ('\u{00FA}', 0xFA), ('\u{00FB}', 0xFB), 
    ('\u{00FC}', 0xFC), ('\u{00FF}', 0xFF), ('\u{011E}', 0xD0), ('\u{011F}', 0xF0), 
    ('\u{0130}', 0xDD), ('\u{0131}', 0xFD), ('\u{015E}', 0xDE), ('\u{015F}', 0xFE), 
];
"#

end Verif.Files
