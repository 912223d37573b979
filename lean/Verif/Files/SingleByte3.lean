import Verif.Text

/-! Generated by tools/gen_files.py: verbatim copies of files of /repo. -/

namespace Verif.Files

/-- encoding_tables/single_byte/ascii_ext/windows-cp874.txt:1-274 -/
noncomputable def windows_874_mapping : List Text := lines! r#"#
#    Name:     cp874 to Unicode table
#    Unicode version: 2.0
#    Table version: 2.01
#    Table format:  Format A
#    Date:          02/28/98
#
#    Contact:       Shawn.Steele@microsoft.com
#
#    General notes: none
#
#    Format: Three tab-separated columns
#        Column #1 is the cp874 code (in hex)
#        Column #2 is the Unicode (in hex as 0xXXXX)
#        Column #3 is the Unicode name (follows a comment sign, '#')
#
#    The entries are in cp874 order
#
0x00	0x0000	#NULL
0x01	0x0001	#START OF HEADING
0x02	0x0002	#START OF TEXT
0x03	0x0003	#END OF TEXT
0x04	0x0004	#END OF TRANSMISSION
0x05	0x0005	#ENQUIRY
0x06	0x0006	#ACKNOWLEDGE
0x07	0x0007	#BELL
0x08	0x0008	#BACKSPACE
0x09	0x0009	#HORIZONTAL TABULATION
0x0A	0x000A	#LINE FEED
0x0B	0x000B	#VERTICAL TABULATION
0x0C	0x000C	#FORM FEED
0x0D	0x000D	#CARRIAGE RETURN
0x0E	0x000E	#SHIFT OUT
0x0F	0x000F	#SHIFT IN
0x10	0x0010	#DATA LINK ESCAPE
0x11	0x0011	#DEVICE CONTROL ONE
0x12	0x0012	#DEVICE CONTROL TWO
0x13	0x0013	#DEVICE CONTROL THREE
0x14	0x0014	#DEVICE CONTROL FOUR
0x15	0x0015	#NEGATIVE ACKNOWLEDGE
0x16	0x0016	#SYNCHRONOUS IDLE
0x17	0x0017	#END OF TRANSMISSION BLOCK
0x18	0x0018	#CANCEL
0x19	0x0019	#END OF MEDIUM
0x1A	0x001A	#SUBSTITUTE
0x1B	0x001B	#ESCAPE
0x1C	0x001C	#FILE SEPARATOR
0x1D	0x001D	#GROUP SEPARATOR
0x1E	0x001E	#RECORD SEPARATOR
0x1F	0x001F	#UNIT SEPARATOR
0x20	0x0020	#SPACE
0x21	0x0021	#EXCLAMATION MARK
0x22	0x0022	#QUOTATION MARK
0x23	0x0023	#NUMBER SIGN
0x24	0x0024	#DOLLAR SIGN
0x25	0x0025	#PERCENT SIGN
0x26	0x0026	#AMPERSAND
0x27	0x0027	#APOSTROPHE
0x28	0x0028	#LEFT PARENTHESIS
0x29	0x0029	#RIGHT PARENTHESIS
0x2A	0x002A	#ASTERISK
0x2B	0x002B	#PLUS SIGN
0x2C	0x002C	#COMMA
0x2D	0x002D	#HYPHEN-MINUS
0x2E	0x002E	#FULL STOP
0x2F	0x002F	#SOLIDUS
0x30	0x0030	#DIGIT ZERO
0x31	0x0031	#DIGIT ONE
0x32	0x0032	#DIGIT TWO
0x33	0x0033	#DIGIT THREE
0x34	0x0034	#DIGIT FOUR
0x35	0x0035	#DIGIT FIVE
0x36	0x0036	#DIGIT SIX
0x37	0x0037	#DIGIT SEVEN
0x38	0x0038	#DIGIT EIGHT
0x39	0x0039	#DIGIT NINE
0x3A	0x003A	#COLON
0x3B	0x003B	#SEMICOLON
0x3C	0x003C	#LESS-THAN SIGN
0x3D	0x003D	#EQUALS SIGN
0x3E	0x003E	#GREATER-THAN SIGN
0x3F	0x003F	#QUESTION MARK
0x40	0x0040	#COMMERCIAL AT
0x41	0x0041	#LATIN CAPITAL LETTER A
0x42	0x0042	#LATIN CAPITAL LETTER B
0x43	0x0043	#LATIN CAPITAL LETTER C
0x44	0x0044	#LATIN CAPITAL LETTER D
0x45	0x0045	#LATIN CAPITAL LETTER E
0x46	0x0046	#LATIN CAPITAL LETTER F
0x47	0x0047	#LATIN CAPITAL LETTER G
0x48	0x0048	#LATIN CAPITAL LETTER H
0x49	0x0049	#LATIN CAPITAL LETTER I
0x4A	0x004A	#LATIN CAPITAL LETTER J
0x4B	0x004B	#LATIN CAPITAL LETTER K
0x4C	0x004C	#LATIN CAPITAL LETTER L
0x4D	0x004D	#LATIN CAPITAL LETTER M
0x4E	0x004E	#LATIN CAPITAL LETTER N
0x4F	0x004F	#LATIN CAPITAL LETTER O
0x50	0x0050	#LATIN CAPITAL LETTER P
0x51	0x0051	#LATIN CAPITAL LETTER Q
0x52	0x0052	#LATIN CAPITAL LETTER R
0x53	0x0053	#LATIN CAPITAL LETTER S
0x54	0x0054	#LATIN CAPITAL LETTER T
0x55	0x0055	#LATIN CAPITAL LETTER U
0x56	0x0056	#LATIN CAPITAL LETTER V
0x57	0x0057	#LATIN CAPITAL LETTER W
0x58	0x0058	#LATIN CAPITAL LETTER X
0x59	0x0059	#LATIN CAPITAL LETTER Y
0x5A	0x005A	#LATIN CAPITAL LETTER Z
0x5B	0x005B	#LEFT SQUARE BRACKET
0x5C	0x005C	#REVERSE SOLIDUS
0x5D	0x005D	#RIGHT SQUARE BRACKET
0x5E	0x005E	#CIRCUMFLEX ACCENT
0x5F	0x005F	#LOW LINE
0x60	0x0060	#GRAVE ACCENT
0x61	0x0061	#LATIN SMALL LETTER A
0x62	0x0062	#LATIN SMALL LETTER B
0x63	0x0063	#LATIN SMALL LETTER C
0x64	0x0064	#LATIN SMALL LETTER D
0x65	0x0065	#LATIN SMALL LETTER E
0x66	0x0066	#LATIN SMALL LETTER F
0x67	0x0067	#LATIN SMALL LETTER G
0x68	0x0068	#LATIN SMALL LETTER H
0x69	0x0069	#LATIN SMALL LETTER I
0x6A	0x006A	#LATIN SMALL LETTER J
0x6B	0x006B	#LATIN SMALL LETTER K
0x6C	0x006C	#LATIN SMALL LETTER L
0x6D	0x006D	#LATIN SMALL LETTER M
0x6E	0x006E	#LATIN SMALL LETTER N
0x6F	0x006F	#LATIN SMALL LETTER O
0x70	0x0070	#LATIN SMALL LETTER P
0x71	0x0071	#LATIN SMALL LETTER Q
0x72	0x0072	#LATIN SMALL LETTER R
0x73	0x0073	#LATIN SMALL LETTER S
0x74	0x0074	#LATIN SMALL LETTER T
0x75	0x0075	#LATIN SMALL LETTER U
0x76	0x0076	#LATIN SMALL LETTER V
0x77	0x0077	#LATIN SMALL LETTER W
0x78	0x0078	#LATIN SMALL LETTER X
0x79	0x0079	#LATIN SMALL LETTER Y
0x7A	0x007A	#LATIN SMALL LETTER Z
0x7B	0x007B	#LEFT CURLY BRACKET
0x7C	0x007C	#VERTICAL LINE
0x7D	0x007D	#RIGHT CURLY BRACKET
0x7E	0x007E	#TILDE
0x7F	0x007F	#DELETE
0x80	0x20AC	#EURO SIGN
0x81	      	#UNDEFINED
0x82	      	#UNDEFINED
0x83	      	#UNDEFINED
0x84	      	#UNDEFINED
0x85	0x2026	#HORIZONTAL ELLIPSIS
0x86	      	#UNDEFINED
0x87	      	#UNDEFINED
0x88	      	#UNDEFINED
0x89	      	#UNDEFINED
0x8A	      	#UNDEFINED
0x8B	      	#UNDEFINED
0x8C	      	#UNDEFINED
0x8D	      	#UNDEFINED
0x8E	      	#UNDEFINED
0x8F	      	#UNDEFINED
0x90	      	#UNDEFINED
0x91	0x2018	#LEFT SINGLE QUOTATION MARK
0x92	0x2019	#RIGHT SINGLE QUOTATION MARK
0x93	0x201C	#LEFT DOUBLE QUOTATION MARK
0x94	0x201D	#RIGHT DOUBLE QUOTATION MARK
0x95	0x2022	#BULLET
0x96	0x2013	#EN DASH
0x97	0x2014	#EM DASH
0x98	      	#UNDEFINED
0x99	      	#UNDEFINED
0x9A	      	#UNDEFINED
0x9B	      	#UNDEFINED
0x9C	      	#UNDEFINED
0x9D	      	#UNDEFINED
0x9E	      	#UNDEFINED
0x9F	      	#UNDEFINED
0xA0	0x00A0	#NO-BREAK SPACE
0xA1	0x0E01	#THAI CHARACTER KO KAI
0xA2	0x0E02	#THAI CHARACTER KHO KHAI
0xA3	0x0E03	#THAI CHARACTER KHO KHUAT
0xA4	0x0E04	#THAI CHARACTER KHO KHWAI
0xA5	0x0E05	#THAI CHARACTER KHO KHON
0xA6	0x0E06	#THAI CHARACTER KHO RAKHANG
0xA7	0x0E07	#THAI CHARACTER NGO NGU
0xA8	0x0E08	#THAI CHARACTER CHO CHAN
0xA9	0x0E09	#THAI CHARACTER CHO CHING
0xAA	0x0E0A	#THAI CHARACTER CHO CHANG
0xAB	0x0E0B	#THAI CHARACTER SO SO
0xAC	0x0E0C	#THAI CHARACTER CHO CHOE
0xAD	0x0E0D	#THAI CHARACTER YO YING
0xAE	0x0E0E	#THAI CHARACTER DO CHADA
0xAF	0x0E0F	#THAI CHARACTER TO PATAK
0xB0	0x0E10	#THAI CHARACTER THO THAN
0xB1	0x0E11	#THAI CHARACTER THO NANGMONTHO
0xB2	0x0E12	#THAI CHARACTER THO PHUTHAO
0xB3	0x0E13	#THAI CHARACTER NO NEN
0xB4	0x0E14	#THAI CHARACTER DO DEK
0xB5	0x0E15	#THAI CHARACTER TO TAO
0xB6	0x0E16	#THAI CHARACTER THO THUNG
0xB7	0x0E17	#THAI CHARACTER THO THAHAN
0xB8	0x0E18	#THAI CHARACTER THO THONG
0xB9	0x0E19	#THAI CHARACTER NO NU
0xBA	0x0E1A	#THAI CHARACTER BO BAIMAI
0xBB	0x0E1B	#THAI CHARACTER PO PLA
0xBC	0x0E1C	#THAI CHARACTER PHO PHUNG
0xBD	0x0E1D	#THAI CHARACTER FO FA
0xBE	0x0E1E	#THAI CHARACTER PHO PHAN
0xBF	0x0E1F	#THAI CHARACTER FO FAN
0xC0	0x0E20	#THAI CHARACTER PHO SAMPHAO
0xC1	0x0E21	#THAI CHARACTER MO MA
0xC2	0x0E22	#THAI CHARACTER YO YAK
0xC3	0x0E23	#THAI CHARACTER RO RUA
0xC4	0x0E24	#THAI CHARACTER RU
0xC5	0x0E25	#THAI CHARACTER LO LING
0xC6	0x0E26	#THAI CHARACTER LU
0xC7	0x0E27	#THAI CHARACTER WO WAEN
0xC8	0x0E28	#THAI CHARACTER SO SALA
0xC9	0x0E29	#THAI CHARACTER SO RUSI
0xCA	0x0E2A	#THAI CHARACTER SO SUA
0xCB	0x0E2B	#THAI CHARACTER HO HIP
0xCC	0x0E2C	#THAI CHARACTER LO CHULA
0xCD	0x0E2D	#THAI CHARACTER O ANG
0xCE	0x0E2E	#THAI CHARACTER HO NOKHUK
0xCF	0x0E2F	#THAI CHARACTER PAIYANNOI
0xD0	0x0E30	#THAI CHARACTER SARA A
0xD1	0x0E31	#THAI CHARACTER MAI HAN-AKAT
0xD2	0x0E32	#THAI CHARACTER SARA AA
0xD3	0x0E33	#THAI CHARACTER SARA AM
0xD4	0x0E34	#THAI CHARACTER SARA I
0xD5	0x0E35	#THAI CHARACTER SARA II
0xD6	0x0E36	#THAI CHARACTER SARA UE
0xD7	0x0E37	#THAI CHARACTER SARA UEE
0xD8	0x0E38	#THAI CHARACTER SARA U
0xD9	0x0E39	#THAI CHARACTER SARA UU
0xDA	0x0E3A	#THAI CHARACTER PHINTHU
0xDB	      	#UNDEFINED
0xDC	      	#UNDEFINED
0xDD	      	#UNDEFINED
0xDE	      	#UNDEFINED
0xDF	0x0E3F	#THAI CURRENCY SYMBOL BAHT
0xE0	0x0E40	#THAI CHARACTER SARA E
0xE1	0x0E41	#THAI CHARACTER SARA AE
0xE2	0x0E42	#THAI CHARACTER SARA O
0xE3	0x0E43	#THAI CHARACTER SARA AI MAIMUAN
0xE4	0x0E44	#THAI CHARACTER SARA AI MAIMALAI
0xE5	0x0E45	#THAI CHARACTER LAKKHANGYAO
0xE6	0x0E46	#THAI CHARACTER MAIYAMOK
0xE7	0x0E47	#THAI CHARACTER MAITAIKHU
0xE8	0x0E48	#THAI CHARACTER MAI EK
0xE9	0x0E49	#THAI CHARACTER MAI THO
0xEA	0x0E4A	#THAI CHARACTER MAI TRI
0xEB	0x0E4B	#THAI CHARACTER MAI CHATTAWA
0xEC	0x0E4C	#THAI CHARACTER THANTHAKHAT
0xED	0x0E4D	#THAI CHARACTER NIKHAHIT
0xEE	0x0E4E	#THAI CHARACTER YAMAKKAN
0xEF	0x0E4F	#THAI CHARACTER FONGMAN
0xF0	0x0E50	#THAI DIGIT ZERO
0xF1	0x0E51	#THAI DIGIT ONE
0xF2	0x0E52	#THAI DIGIT TWO
0xF3	0x0E53	#THAI DIGIT THREE
0xF4	0x0E54	#THAI DIGIT FOUR
0xF5	0x0E55	#THAI DIGIT FIVE
0xF6	0x0E56	#THAI DIGIT SIX
0xF7	0x0E57	#THAI DIGIT SEVEN
0xF8	0x0E58	#THAI DIGIT EIGHT
0xF9	0x0E59	#THAI DIGIT NINE
0xFA	0x0E5A	#THAI CHARACTER ANGKHANKHU
0xFB	0x0E5B	#THAI CHARACTER KHOMUT
0xFC	      	#UNDEFINED
0xFD	      	#UNDEFINED
0xFE	      	#UNDEFINED
0xFF	      	#UNDEFINED
"#

/-- src/generated/single_byte/windows-cp874_tables.rs.inc:1-65 -/
noncomputable def windows_874_source : List Text := lines! r#"// This file is auto-generated.  Please see `encoding_tables/single_byte/`
// from the root directory for the files that generate this.

use {DecodeResult, EncodeResult};

pub fn decode_to_str<'a>(
    input: &[u8],
    out_buffer: &'a mut [u8],
) -> DecodeResult<'a> {
    super::ascii_ext_decode_to_str(&DECODE_TABLE, input, out_buffer)
}

pub fn encode_from_str<'a>(
    input: &str,
    out_buffer: &'a mut [u8],
) -> EncodeResult<'a> {
    super::ascii_ext_encode_from_str(&ENCODE_TABLE, input, out_buffer)
}

const DECODE_TABLE: [char; 128] = [
    '\u{20AC}','�','�','�','�','\u{2026}','�','�',
    '�','�','�','�','�','�','�','�',
    '�','\u{2018}','\u{2019}','\u{201C}','\u{201D}','\u{2022}','\u{2013}','\u{2014}',
    '�','�','�','�','�','�','�','�',
    '\u{00A0}','\u{0E01}','\u{0E02}','\u{0E03}','\u{0E04}','\u{0E05}','\u{0E06}','\u{0E07}',
    '\u{0E08}','\u{0E09}','\u{0E0A}','\u{0E0B}','\u{0E0C}','\u{0E0D}','\u{0E0E}','\u{0E0F}',
    '\u{0E10}','\u{0E11}','\u{0E12}','\u{0E13}','\u{0E14}','\u{0E15}','\u{0E16}','\u{0E17}',
    '\u{0E18}','\u{0E19}','\u{0E1A}','\u{0E1B}','\u{0E1C}','\u{0E1D}','\u{0E1E}','\u{0E1F}',
    '\u{0E20}','\u{0E21}','\u{0E22}','\u{0E23}','\u{0E24}','\u{0E25}','\u{0E26}','\u{0E27}',
    '\u{0E28}','\u{0E29}','\u{0E2A}','\u{0E2B}','\u{0E2C}','\u{0E2D}','\u{0E2E}','\u{0E2F}',
    '\u{0E30}','\u{0E31}','\u{0E32}','\u{0E33}','\u{0E34}','\u{0E35}','\u{0E36}','\u{0E37}',
    '\u{0E38}','\u{0E39}','\u{0E3A}','�','�','�','�','\u{0E3F}',
    '\u{0E40}','\u{0E41}','\u{0E42}','\u{0E43}','\u{0E44}','\u{0E45}','\u{0E46}','\u{0E47}',
    '\u{0E48}','\u{0E49}','\u{0E4A}','\u{0E4B}','\u{0E4C}','\u{0E4D}','\u{0E4E}','\u{0E4F}',
    '\u{0E50}','\u{0E51}','\u{0E52}','\u{0E53}','\u{0E54}','\u{0E55}','\u{0E56}','\u{0E57}',
    '\u{0E58}','\u{0E59}','\u{0E5A}','\u{0E5B}','�','�','�','�',
];

const ENCODE_TABLE: [(char, u8); 97] = [
    ('\u{00A0}', 0xA0), ('\u{0E01}', 0xA1), ('\u{0E02}', 0xA2), ('\u{0E03}', 0xA3), 
    ('\u{0E04}', 0xA4), ('\u{0E05}', 0xA5), ('\u{0E06}', 0xA6), ('\u{0E07}', 0xA7), 
    ('\u{0E08}', 0xA8), ('\u{0E09}', 0xA9), ('\u{0E0A}', 0xAA), ('\u{0E0B}', 0xAB), 
    ('\u{0E0C}', 0xAC), ('\u{0E0D}', 0xAD), ('\u{0E0E}', 0xAE), ('\u{0E0F}', 0xAF), 
    ('\u{0E10}', 0xB0), ('\u{0E11}', 0xB1), ('\u{0E12}', 0xB2), ('\u{0E13}', 0xB3), 
    ('\u{0E14}', 0xB4), ('\u{0E15}', 0xB5), ('\u{0E16}', 0xB6), ('\u{0E17}', 0xB7), 
    ('\u{0E18}', 0xB8), ('\u{0E19}', 0xB9), ('\u{0E1A}', 0xBA), ('\u{0E1B}', 0xBB), 
    ('\u{0E1C}', 0xBC), ('\u{0E1D}', 0xBD), ('\u{0E1E}', 0xBE), ('\u{0E1F}', 0xBF), 
    ('\u{0E20}', 0xC0), ('\u{0E21}', 0xC1), ('\u{0E22}', 0xC2), ('\u{0E23}', 0xC3), 
    ('\u{0E24}', 0xC4), ('\u{0E25}', 0xC5), ('\u{0E26}', 0xC6), ('\u{0E27}', 0xC7), 
    ('\u{0E28}', 0xC8), ('\u{0E29}', 0xC9), ('\u{0E2A}', 0xCA), ('\u{0E2B}', 0xCB), 
    ('\u{0E2C}', 0xCC), ('\u{0E2D}', 0xCD), ('\u{0E2E}', 0xCE), ('\u{0E2F}', 0xCF), 
    ('\u{0E30}', 0xD0), ('\u{0E31}', 0xD1), ('\u{0E32}', 0xD2), ('\u{0E33}', 0xD3), 
    ('\u{0E34}', 0xD4), ('\u{0E35}', 0xD5), ('\u{0E36}', 0xD6), ('\u{0E37}', 0xD7), 
    ('\u{0E38}', 0xD8), ('\u{0E39}', 0xD9), ('\u{0E3A}', 0xDA), ('\u{0E3F}', 0xDF), 
    ('\u{0E40}', 0xE0), ('\u{0E41}', 0xE1), ('\u{0E42}', 0xE2), ('\u{0E43}', 0xE3), 
    ('\u{0E44}', 0xE4), ('\u{0E45}', 0xE5), ('\u{0E46}', 0xE6), ('\u{0E47}', 0xE7), 
    ('\u{0E48}', 0xE8), ('\u{0E49}', 0xE9), ('\u{0E4A}', 0xEA), ('\u{0E4B}', 0xEB), 
    ('\u{0E4C}', 0xEC), ('\u{0E4D}', 0xED), ('\u{0E4E}', 0xEE), ('\u{0E4F}', 0xEF), 
    ('\u{0E50}', 0xF0), ('\u{0E51}', 0xF1), ('\u{0E52}', 0xF2), ('\u{0E53}', 0xF3), 
    ('\u{0E54}', 0xF4), ('\u{0E55}', 0xF5), ('\u{0E56}', 0xF6), ('\u{0E57}', 0xF7), 
    ('\u{0E58}', 0xF8), ('\u{0E59}', 0xF9), ('\u{0E5A}', 0xFA), ('\u{0E5B}', 0xFB), 
    ('\u{2013}', 0x96), ('\u{2014}', 0x97), ('\u{2018}', 0x91), ('\u{2019}', 0x92), 
    ('\u{201C}', 0x93), ('\u{201D}', 0x94), ('\u{2022}', 0x95), ('\u{2026}', 0x85), 
    ('\u{20AC}', 0x80), 
];
"#

/-- encoding_tables/single_byte/ascii_ext/windows-cp1250.txt:1-274 -/
noncomputable def windows_1250_mapping : List Text := lines! r#"#
#    Name:     cp1250 to Unicode table
#    Unicode version: 2.0
#    Table version: 2.01
#    Table format:  Format A
#    Date:          04/15/98
#
#    Contact:       Shawn.Steele@microsoft.com
#
#    General notes: none
#
#    Format: Three tab-separated columns
#        Column #1 is the cp1250 code (in hex)
#        Column #2 is the Unicode (in hex as 0xXXXX)
#        Column #3 is the Unicode name (follows a comment sign, '#')
#
#    The entries are in cp1250 order
#
0x00	0x0000	#NULL
0x01	0x0001	#START OF HEADING
0x02	0x0002	#START OF TEXT
0x03	0x0003	#END OF TEXT
0x04	0x0004	#END OF TRANSMISSION
0x05	0x0005	#ENQUIRY
0x06	0x0006	#ACKNOWLEDGE
0x07	0x0007	#BELL
0x08	0x0008	#BACKSPACE
0x09	0x0009	#HORIZONTAL TABULATION
0x0A	0x000A	#LINE FEED
0x0B	0x000B	#VERTICAL TABULATION
0x0C	0x000C	#FORM FEED
0x0D	0x000D	#CARRIAGE RETURN
0x0E	0x000E	#SHIFT OUT
0x0F	0x000F	#SHIFT IN
0x10	0x0010	#DATA LINK ESCAPE
0x11	0x0011	#DEVICE CONTROL ONE
0x12	0x0012	#DEVICE CONTROL TWO
0x13	0x0013	#DEVICE CONTROL THREE
0x14	0x0014	#DEVICE CONTROL FOUR
0x15	0x0015	#NEGATIVE ACKNOWLEDGE
0x16	0x0016	#SYNCHRONOUS IDLE
0x17	0x0017	#END OF TRANSMISSION BLOCK
0x18	0x0018	#CANCEL
0x19	0x0019	#END OF MEDIUM
0x1A	0x001A	#SUBSTITUTE
0x1B	0x001B	#ESCAPE
0x1C	0x001C	#FILE SEPARATOR
0x1D	0x001D	#GROUP SEPARATOR
0x1E	0x001E	#RECORD SEPARATOR
0x1F	0x001F	#UNIT SEPARATOR
0x20	0x0020	#SPACE
0x21	0x0021	#EXCLAMATION MARK
0x22	0x0022	#QUOTATION MARK
0x23	0x0023	#NUMBER SIGN
0x24	0x0024	#DOLLAR SIGN
0x25	0x0025	#PERCENT SIGN
0x26	0x0026	#AMPERSAND
0x27	0x0027	#APOSTROPHE
0x28	0x0028	#LEFT PARENTHESIS
0x29	0x0029	#RIGHT PARENTHESIS
0x2A	0x002A	#ASTERISK
0x2B	0x002B	#PLUS SIGN
0x2C	0x002C	#COMMA
0x2D	0x002D	#HYPHEN-MINUS
0x2E	0x002E	#FULL STOP
0x2F	0x002F	#SOLIDUS
0x30	0x0030	#DIGIT ZERO
0x31	0x0031	#DIGIT ONE
0x32	0x0032	#DIGIT TWO
0x33	0x0033	#DIGIT THREE
0x34	0x0034	#DIGIT FOUR
0x35	0x0035	#DIGIT FIVE
0x36	0x0036	#DIGIT SIX
0x37	0x0037	#DIGIT SEVEN
0x38	0x0038	#DIGIT EIGHT
0x39	0x0039	#DIGIT NINE
0x3A	0x003A	#COLON
0x3B	0x003B	#SEMICOLON
0x3C	0x003C	#LESS-THAN SIGN
0x3D	0x003D	#EQUALS SIGN
0x3E	0x003E	#GREATER-THAN SIGN
0x3F	0x003F	#QUESTION MARK
0x40	0x0040	#COMMERCIAL AT
0x41	0x0041	#LATIN CAPITAL LETTER A
0x42	0x0042	#LATIN CAPITAL LETTER B
0x43	0x0043	#LATIN CAPITAL LETTER C
0x44	0x0044	#LATIN CAPITAL LETTER D
0x45	0x0045	#LATIN CAPITAL LETTER E
0x46	0x0046	#LATIN CAPITAL LETTER F
0x47	0x0047	#LATIN CAPITAL LETTER G
0x48	0x0048	#LATIN CAPITAL LETTER H
0x49	0x0049	#LATIN CAPITAL LETTER I
0x4A	0x004A	#LATIN CAPITAL LETTER J
0x4B	0x004B	#LATIN CAPITAL LETTER K
0x4C	0x004C	#LATIN CAPITAL LETTER L
0x4D	0x004D	#LATIN CAPITAL LETTER M
0x4E	0x004E	#LATIN CAPITAL LETTER N
0x4F	0x004F	#LATIN CAPITAL LETTER O
0x50	0x0050	#LATIN CAPITAL LETTER P
0x51	0x0051	#LATIN CAPITAL LETTER Q
0x52	0x0052	#LATIN CAPITAL LETTER R
0x53	0x0053	#LATIN CAPITAL LETTER S
0x54	0x0054	#LATIN CAPITAL LETTER T
0x55	0x0055	#LATIN CAPITAL LETTER U
0x56	0x0056	#LATIN CAPITAL LETTER V
0x57	0x0057	#LATIN CAPITAL LETTER W
0x58	0x0058	#LATIN CAPITAL LETTER X
0x59	0x0059	#LATIN CAPITAL LETTER Y
0x5A	0x005A	#LATIN CAPITAL LETTER Z
0x5B	0x005B	#LEFT SQUARE BRACKET
0x5C	0x005C	#REVERSE SOLIDUS
0x5D	0x005D	#RIGHT SQUARE BRACKET
0x5E	0x005E	#CIRCUMFLEX ACCENT
0x5F	0x005F	#LOW LINE
0x60	0x0060	#GRAVE ACCENT
0x61	0x0061	#LATIN SMALL LETTER A
0x62	0x0062	#LATIN SMALL LETTER B
0x63	0x0063	#LATIN SMALL LETTER C
0x64	0x0064	#LATIN SMALL LETTER D
0x65	0x0065	#LATIN SMALL LETTER E
0x66	0x0066	#LATIN SMALL LETTER F
0x67	0x0067	#LATIN SMALL LETTER G
0x68	0x0068	#LATIN SMALL LETTER H
0x69	0x0069	#LATIN SMALL LETTER I
0x6A	0x006A	#LATIN SMALL LETTER J
0x6B	0x006B	#LATIN SMALL LETTER K
0x6C	0x006C	#LATIN SMALL LETTER L
0x6D	0x006D	#LATIN SMALL LETTER M
0x6E	0x006E	#LATIN SMALL LETTER N
0x6F	0x006F	#LATIN SMALL LETTER O
0x70	0x0070	#LATIN SMALL LETTER P
0x71	0x0071	#LATIN SMALL LETTER Q
0x72	0x0072	#LATIN SMALL LETTER R
0x73	0x0073	#LATIN SMALL LETTER S
0x74	0x0074	#LATIN SMALL LETTER T
0x75	0x0075	#LATIN SMALL LETTER U
0x76	0x0076	#LATIN SMALL LETTER V
0x77	0x0077	#LATIN SMALL LETTER W
0x78	0x0078	#LATIN SMALL LETTER X
0x79	0x0079	#LATIN SMALL LETTER Y
0x7A	0x007A	#LATIN SMALL LETTER Z
0x7B	0x007B	#LEFT CURLY BRACKET
0x7C	0x007C	#VERTICAL LINE
0x7D	0x007D	#RIGHT CURLY BRACKET
0x7E	0x007E	#TILDE
0x7F	0x007F	#DELETE
0x80	0x20AC	#EURO SIGN
0x81	      	#UNDEFINED
0x82	0x201A	#SINGLE LOW-9 QUOTATION MARK
0x83	      	#UNDEFINED
0x84	0x201E	#DOUBLE LOW-9 QUOTATION MARK
0x85	0x2026	#HORIZONTAL ELLIPSIS
0x86	0x2020	#DAGGER
0x87	0x2021	#DOUBLE DAGGER
0x88	      	#UNDEFINED
0x89	0x2030	#PER MILLE SIGN
0x8A	0x0160	#LATIN CAPITAL LETTER S WITH CARON
0x8B	0x2039	#SINGLE LEFT-POINTING ANGLE QUOTATION MARK
0x8C	0x015A	#LATIN CAPITAL LETTER S WITH ACUTE
0x8D	0x0164	#LATIN CAPITAL LETTER T WITH CARON
0x8E	0x017D	#LATIN CAPITAL LETTER Z WITH CARON
0x8F	0x0179	#LATIN CAPITAL LETTER Z WITH ACUTE
0x90	      	#UNDEFINED
0x91	0x2018	#LEFT SINGLE QUOTATION MARK
0x92	0x2019	#RIGHT SINGLE QUOTATION MARK
0x93	0x201C	#LEFT DOUBLE QUOTATION MARK
0x94	0x201D	#RIGHT DOUBLE QUOTATION MARK
0x95	0x2022	#BULLET
0x96	0x2013	#EN DASH
0x97	0x2014	#EM DASH
0x98	      	#UNDEFINED
0x99	0x2122	#TRADE MARK SIGN
0x9A	0x0161	#LATIN SMALL LETTER S WITH CARON
0x9B	0x203A	#SINGLE RIGHT-POINTING ANGLE QUOTATION MARK
0x9C	0x015B	#LATIN SMALL LETTER S WITH ACUTE
0x9D	0x0165	#LATIN SMALL LETTER T WITH CARON
0x9E	0x017E	#LATIN SMALL LETTER Z WITH CARON
0x9F	0x017A	#LATIN SMALL LETTER Z WITH ACUTE
0xA0	0x00A0	#NO-BREAK SPACE
0xA1	0x02C7	#CARON
0xA2	0x02D8	#BREVE
0xA3	0x0141	#LATIN CAPITAL LETTER L WITH STROKE
0xA4	0x00A4	#CURRENCY SIGN
0xA5	0x0104	#LATIN CAPITAL LETTER A WITH OGONEK
0xA6	0x00A6	#BROKEN BAR
0xA7	0x00A7	#SECTION SIGN
0xA8	0x00A8	#DIAERESIS
0xA9	0x00A9	#COPYRIGHT SIGN
0xAA	0x015E	#LATIN CAPITAL LETTER S WITH CEDILLA
0xAB	0x00AB	#LEFT-POINTING DOUBLE ANGLE QUOTATION MARK
0xAC	0x00AC	#NOT SIGN
0xAD	0x00AD	#SOFT HYPHEN
0xAE	0x00AE	#REGISTERED SIGN
0xAF	0x017B	#LATIN CAPITAL LETTER Z WITH DOT ABOVE
0xB0	0x00B0	#DEGREE SIGN
0xB1	0x00B1	#PLUS-MINUS SIGN
0xB2	0x02DB	#OGONEK
0xB3	0x0142	#LATIN SMALL LETTER L WITH STROKE
0xB4	0x00B4	#ACUTE ACCENT
0xB5	0x00B5	#MICRO SIGN
0xB6	0x00B6	#PILCROW SIGN
0xB7	0x00B7	#MIDDLE DOT
0xB8	0x00B8	#CEDILLA
0xB9	0x0105	#LATIN SMALL LETTER A WITH OGONEK
0xBA	0x015F	#LATIN SMALL LETTER S WITH CEDILLA
0xBB	0x00BB	#RIGHT-POINTING DOUBLE ANGLE QUOTATION MARK
0xBC	0x013D	#LATIN CAPITAL LETTER L WITH CARON
0xBD	0x02DD	#DOUBLE ACUTE ACCENT
0xBE	0x013E	#LATIN SMALL LETTER L WITH CARON
0xBF	0x017C	#LATIN SMALL LETTER Z WITH DOT ABOVE
0xC0	0x0154	#LATIN CAPITAL LETTER R WITH ACUTE
0xC1	0x00C1	#LATIN CAPITAL LETTER A WITH ACUTE
0xC2	0x00C2	#LATIN CAPITAL LETTER A WITH CIRCUMFLEX
0xC3	0x0102	#LATIN CAPITAL LETTER A WITH BREVE
0xC4	0x00C4	#LATIN CAPITAL LETTER A WITH DIAERESIS
0xC5	0x0139	#LATIN CAPITAL LETTER L WITH ACUTE
0xC6	0x0106	#LATIN CAPITAL LETTER C WITH ACUTE
0xC7	0x00C7	#LATIN CAPITAL LETTER C WITH CEDILLA
0xC8	0x010C	#LATIN CAPITAL LETTER C WITH CARON
0xC9	0x00C9	#LATIN CAPITAL LETTER E WITH ACUTE
0xCA	0x0118	#LATIN CAPITAL LETTER E WITH OGONEK
0xCB	0x00CB	#LATIN CAPITAL LETTER E WITH DIAERESIS
0xCC	0x011A	#LATIN CAPITAL LETTER E WITH CARON
0xCD	0x00CD	#LATIN CAPITAL LETTER I WITH ACUTE
0xCE	0x00CE	#LATIN CAPITAL LETTER I WITH CIRCUMFLEX
0xCF	0x010E	#LATIN CAPITAL LETTER D WITH CARON
0xD0	0x0110	#LATIN CAPITAL LETTER D WITH STROKE
0xD1	0x0143	#LATIN CAPITAL LETTER N WITH ACUTE
0xD2	0x0147	#LATIN CAPITAL LETTER N WITH CARON
0xD3	0x00D3	#LATIN CAPITAL LETTER O WITH ACUTE
0xD4	0x00D4	#LATIN CAPITAL LETTER O WITH CIRCUMFLEX
0xD5	0x0150	#LATIN CAPITAL LETTER O WITH DOUBLE ACUTE
0xD6	0x00D6	#LATIN CAPITAL LETTER O WITH DIAERESIS
0xD7	0x00D7	#MULTIPLICATION SIGN
0xD8	0x0158	#LATIN CAPITAL LETTER R WITH CARON
0xD9	0x016E	#LATIN CAPITAL LETTER U WITH RING ABOVE
0xDA	0x00DA	#LATIN CAPITAL LETTER U WITH ACUTE
0xDB	0x0170	#LATIN CAPITAL LETTER U WITH DOUBLE ACUTE
0xDC	0x00DC	#LATIN CAPITAL LETTER U WITH DIAERESIS
0xDD	0x00DD	#LATIN CAPITAL LETTER Y WITH ACUTE
0xDE	0x0162	#LATIN CAPITAL LETTER T WITH CEDILLA
0xDF	0x00DF	#LATIN SMALL LETTER SHARP S
0xE0	0x0155	#LATIN SMALL LETTER R WITH ACUTE
0xE1	0x00E1	#LATIN SMALL LETTER A WITH ACUTE
0xE2	0x00E2	#LATIN SMALL LETTER A WITH CIRCUMFLEX
0xE3	0x0103	#LATIN SMALL LETTER A WITH BREVE
0xE4	0x00E4	#LATIN SMALL LETTER A WITH DIAERESIS
0xE5	0x013A	#LATIN SMALL LETTER L WITH ACUTE
0xE6	0x0107	#LATIN SMALL LETTER C WITH ACUTE
0xE7	0x00E7	#LATIN SMALL LETTER C WITH CEDILLA
0xE8	0x010D	#LATIN SMALL LETTER C WITH CARON
0xE9	0x00E9	#LATIN SMALL LETTER E WITH ACUTE
0xEA	0x0119	#LATIN SMALL LETTER E WITH OGONEK
0xEB	0x00EB	#LATIN SMALL LETTER E WITH DIAERESIS
0xEC	0x011B	#LATIN SMALL LETTER E WITH CARON
0xED	0x00ED	#LATIN SMALL LETTER I WITH ACUTE
0xEE	0x00EE	#LATIN SMALL LETTER I WITH CIRCUMFLEX
0xEF	0x010F	#LATIN SMALL LETTER D WITH CARON
0xF0	0x0111	#LATIN SMALL LETTER D WITH STROKE
0xF1	0x0144	#LATIN SMALL LETTER N WITH ACUTE
0xF2	0x0148	#LATIN SMALL LETTER N WITH CARON
0xF3	0x00F3	#LATIN SMALL LETTER O WITH ACUTE
0xF4	0x00F4	#LATIN SMALL LETTER O WITH CIRCUMFLEX
0xF5	0x0151	#LATIN SMALL LETTER O WITH DOUBLE ACUTE
0xF6	0x00F6	#LATIN SMALL LETTER O WITH DIAERESIS
0xF7	0x00F7	#DIVISION SIGN
0xF8	0x0159	#LATIN SMALL LETTER R WITH CARON
0xF9	0x016F	#LATIN SMALL LETTER U WITH RING ABOVE
0xFA	0x00FA	#LATIN SMALL LETTER U WITH ACUTE
0xFB	0x0171	#LATIN SMALL LETTER U WITH DOUBLE ACUTE
0xFC	0x00FC	#LATIN SMALL LETTER U WITH DIAERESIS
0xFD	0x00FD	#LATIN SMALL LETTER Y WITH ACUTE
0xFE	0x0163	#LATIN SMALL LETTER T WITH CEDILLA
0xFF	0x02D9	#DOT ABOVE
"#

/-- src/generated/single_byte/windows-cp1250_tables.rs.inc:1-71 -/
noncomputable def windows_1250_source : List Text := lines! r#"// This file is auto-generated.  Please see `encoding_tables/single_byte/`
// from the root directory for the files that generate this.

use {DecodeResult, EncodeResult};

pub fn decode_to_str<'a>(
    input: &[u8],
    out_buffer: &'a mut [u8],
) -> DecodeResult<'a> {
    super::ascii_ext_decode_to_str(&DECODE_TABLE, input, out_buffer)
}

pub fn encode_from_str<'a>(
    input: &str,
    out_buffer: &'a mut [u8],
) -> EncodeResult<'a> {
    super::ascii_ext_encode_from_str(&ENCODE_TABLE, input, out_buffer)
}

const DECODE_TABLE: [char; 128] = [
    '\u{20AC}','�','\u{201A}','�','\u{201E}','\u{2026}','\u{2020}','\u{2021}',
    '�','\u{2030}','\u{0160}','\u{2039}','\u{015A}','\u{0164}','\u{017D}','\u{0179}',
    '�','\u{2018}','\u{2019}','\u{201C}','\u{201D}','\u{2022}','\u{2013}','\u{2014}',
    '�','\u{2122}','\u{0161}','\u{203A}','\u{015B}','\u{0165}','\u{017E}','\u{017A}',
    '\u{00A0}','\u{02C7}','\u{02D8}','\u{0141}','\u{00A4}','\u{0104}','\u{00A6}','\u{00A7}',
    '\u{00A8}','\u{00A9}','\u{015E}','\u{00AB}','\u{00AC}','\u{00AD}','\u{00AE}','\u{017B}',
    '\u{00B0}','\u{00B1}','\u{02DB}','\u{0142}','\u{00B4}','\u{00B5}','\u{00B6}','\u{00B7}',
    '\u{00B8}','\u{0105}','\u{015F}','\u{00BB}','\u{013D}','\u{02DD}','\u{013E}','\u{017C}',
    '\u{0154}','\u{00C1}','\u{00C2}','\u{0102}','\u{00C4}','\u{0139}','\u{0106}','\u{00C7}',
    '\u{010C}','\u{00C9}','\u{0118}','\u{00CB}','\u{011A}','\u{00CD}','\u{00CE}','\u{010E}',
    '\u{0110}','\u{0143}','\u{0147}','\u{00D3}','\u{00D4}','\u{0150}','\u{00D6}','\u{00D7}',
    '\u{0158}','\u{016E}','\u{00DA}','\u{0170}','\u{00DC}','\u{00DD}','\u{0162}','\u{00DF}',
    '\u{0155}','\u{00E1}','\u{00E2}','\u{0103}','\u{00E4}','\u{013A}','\u{0107}','\u{00E7}',
    '\u{010D}','\u{00E9}','\u{0119}','\u{00EB}','\u{011B}','\u{00ED}','\u{00EE}','\u{010F}',
    '\u{0111}','\u{0144}','\u{0148}','\u{00F3}','\u{00F4}','\u{0151}','\u{00F6}','\u{00F7}',
    '\u{0159}','\u{016F}','\u{00FA}','\u{0171}','\u{00FC}','\u{00FD}','\u{0163}','\u{02D9}',
];

const ENCODE_TABLE: [(char, u8); 123] = [
    ('\u{00A0}', 0xA0), ('\u{00A4}', 0xA4), ('\u{00A6}', 0xA6), ('\u{00A7}', 0xA7), 
    ('\u{00A8}', 0xA8), ('\u{00A9}', 0xA9), ('\u{00AB}', 0xAB), ('\u{00AC}', 0xAC), 
    ('\u{00AD}', 0xAD), ('\u{00AE}', 0xAE), ('\u{00B0}', 0xB0), ('\u{00B1}', 0xB1), 
    ('\u{00B4}', 0xB4), ('\u{00B5}', 0xB5), ('\u{00B6}', 0xB6), ('\u{00B7}', 0xB7), 
    ('\u{00B8}', 0xB8), ('\u{00BB}', 0xBB), ('\u{00C1}', 0xC1), ('\u{00C2}', 0xC2), 
    ('\u{00C4}', 0xC4), ('\u{00C7}', 0xC7), ('\u{00C9}', 0xC9), ('\u{00CB}', 0xCB), 
    ('\u{00CD}', 0xCD), ('\u{00CE}', 0xCE), ('\u{00D3}', 0xD3), ('\u{00D4}', 0xD4), 
    ('\u{00D6}', 0xD6), ('\u{00D7}', 0xD7), ('\u{00DA}', 0xDA), ('\u{00DC}', 0xDC), 
    ('\u{00DD}', 0xDD), ('\u{00DF}', 0xDF), ('\u{00E1}', 0xE1), ('\u{00E2}', 0xE2), 
    ('\u{00E4}', 0xE4), ('\u{00E7}', 0xE7), ('\u{00E9}', 0xE9), ('\u{00EB}', 0xEB), 
    ('\u{00ED}', 0xED), ('\u{00EE}', 0xEE), ('\u{00F3}', 0xF3), ('\u{00F4}', 0xF4), 
    ('\u{00F6}', 0xF6), ('\u{00F7}', 0xF7), ('\u{00FA}', 0xFA), ('\u{00FC}', 0xFC), 
    ('\u{00FD}', 0xFD), ('\u{0102}', 0xC3), ('\u{0103}', 0xE3), ('\u{0104}', 0xA5), 
    ('\u{0105}', 0xB9), ('\u{0106}', 0xC6), ('\u{0107}', 0xE6), ('\u{010C}', 0xC8), 
    ('\u{010D}', 0xE8), ('\u{010E}', 0xCF), ('\u{010F}', 0xEF), ('\u{0110}', 0xD0), 
    ('\u{0111}', 0xF0), ('\u{0118}', 0xCA), ('\u{0119}', 0xEA), ('\u{011A}', 0xCC), 
    ('\u{011B}', 0xEC), ('\u{0139}', 0xC5), ('\u{013A}', 0xE5), ('\u{013D}', 0xBC), 
    ('\u{013E}', 0xBE), ('\u{0141}', 0xA3), ('\u{0142}', 0xB3), ('\u{0143}', 0xD1), 
    ('\u{0144}', 0xF1), ('\u{0147}', 0xD2), ('\u{0148}', 0xF2), ('\u{0150}', 0xD5), 
    ('\u{0151}', 0xF5), ('\u{0154}', 0xC0), ('\u{0155}', 0xE0), ('\u{0158}', 0xD8), 
    ('\u{0159}', 0xF8), ('\u{015A}', 0x8C), ('\u{015B}', 0x9C), ('\u{015E}', 0xAA), 
    ('\u{015F}', 0xBA), ('\u{0160}', 0x8A), ('\u{0161}', 0x9A), ('\u{0162}', 0xDE), 
    ('\u{0163}', 0xFE), ('\u{0164}', 0x8D), ('\u{0165}', 0x9D), ('\u{016E}', 0xD9), 
    ('\u{016F}', 0xF9), ('\u{0170}', 0xDB), ('\u{0171}', 0xFB), ('\u{0179}', 0x8F), 
    ('\u{017A}', 0x9F), ('\u{017B}', 0xAF), ('\u{017C}', 0xBF), ('\u{017D}', 0x8E), 
    ('\u{017E}', 0x9E), ('\u{02C7}', 0xA1), ('\u{02D8}', 0xA2), ('\u{02D9}', 0xFF), 
    ('\u{02DB}', 0xB2), ('\u{02DD}', 0xBD), ('\u{2013}', 0x96), ('\u{2014}', 0x97), 
    ('\u{2018}', 0x91), ('\u{2019}', 0x92), ('\u{201A}', 0x82), ('\u{201C}', 0x93), 
    ('\u{201D}', 0x94), ('\u{201E}', 0x84), ('\u{2020}', 0x86), ('\u{2021}', 0x87), 
    ('\u{2022}', 0x95), ('\u{2026}', 0x85), ('\u{2030}', 0x89), ('\u{2039}', 0x8B), 
    ('\u{203A}', 0x9B), ('\u{20AC}', 0x80), ('\u{2122}', 0x99), 
];
"#

/-- encoding_tables/single_byte/ascii_ext/windows-cp1251.txt:1-274 -/
noncomputable def windows_1251_mapping : List Text := lines! r#"#
#    Name:     cp1251 to Unicode table
#    Unicode version: 2.0
#    Table version: 2.01
#    Table format:  Format A
#    Date:          04/15/98
#
#    Contact:       Shawn.Steele@microsoft.com
#
#    General notes: none
#
#    Format: Three tab-separated columns
#        Column #1 is the cp1251 code (in hex)
#        Column #2 is the Unicode (in hex as 0xXXXX)
#        Column #3 is the Unicode name (follows a comment sign, '#')
#
#    The entries are in cp1251 order
#
0x00	0x0000	#NULL
0x01	0x0001	#START OF HEADING
0x02	0x0002	#START OF TEXT
0x03	0x0003	#END OF TEXT
0x04	0x0004	#END OF TRANSMISSION
0x05	0x0005	#ENQUIRY
0x06	0x0006	#ACKNOWLEDGE
0x07	0x0007	#BELL
0x08	0x0008	#BACKSPACE
0x09	0x0009	#HORIZONTAL TABULATION
0x0A	0x000A	#LINE FEED
0x0B	0x000B	#VERTICAL TABULATION
0x0C	0x000C	#FORM FEED
0x0D	0x000D	#CARRIAGE RETURN
0x0E	0x000E	#SHIFT OUT
0x0F	0x000F	#SHIFT IN
0x10	0x0010	#DATA LINK ESCAPE
0x11	0x0011	#DEVICE CONTROL ONE
0x12	0x0012	#DEVICE CONTROL TWO
0x13	0x0013	#DEVICE CONTROL THREE
0x14	0x0014	#DEVICE CONTROL FOUR
0x15	0x0015	#NEGATIVE ACKNOWLEDGE
0x16	0x0016	#SYNCHRONOUS IDLE
0x17	0x0017	#END OF TRANSMISSION BLOCK
0x18	0x0018	#CANCEL
0x19	0x0019	#END OF MEDIUM
0x1A	0x001A	#SUBSTITUTE
0x1B	0x001B	#ESCAPE
0x1C	0x001C	#FILE SEPARATOR
0x1D	0x001D	#GROUP SEPARATOR
0x1E	0x001E	#RECORD SEPARATOR
0x1F	0x001F	#UNIT SEPARATOR
0x20	0x0020	#SPACE
0x21	0x0021	#EXCLAMATION MARK
0x22	0x0022	#QUOTATION MARK
0x23	0x0023	#NUMBER SIGN
0x24	0x0024	#DOLLAR SIGN
0x25	0x0025	#PERCENT SIGN
0x26	0x0026	#AMPERSAND
0x27	0x0027	#APOSTROPHE
0x28	0x0028	#LEFT PARENTHESIS
0x29	0x0029	#RIGHT PARENTHESIS
0x2A	0x002A	#ASTERISK
0x2B	0x002B	#PLUS SIGN
0x2C	0x002C	#COMMA
0x2D	0x002D	#HYPHEN-MINUS
0x2E	0x002E	#FULL STOP
0x2F	0x002F	#SOLIDUS
0x30	0x0030	#DIGIT ZERO
0x31	0x0031	#DIGIT ONE
0x32	0x0032	#DIGIT TWO
0x33	0x0033	#DIGIT THREE
0x34	0x0034	#DIGIT FOUR
0x35	0x0035	#DIGIT FIVE
0x36	0x0036	#DIGIT SIX
0x37	0x0037	#DIGIT SEVEN
0x38	0x0038	#DIGIT EIGHT
0x39	0x0039	#DIGIT NINE
0x3A	0x003A	#COLON
0x3B	0x003B	#SEMICOLON
0x3C	0x003C	#LESS-THAN SIGN
0x3D	0x003D	#EQUALS SIGN
0x3E	0x003E	#GREATER-THAN SIGN
0x3F	0x003F	#QUESTION MARK
0x40	0x0040	#COMMERCIAL AT
0x41	0x0041	#LATIN CAPITAL LETTER A
0x42	0x0042	#LATIN CAPITAL LETTER B
0x43	0x0043	#LATIN CAPITAL LETTER C
0x44	0x0044	#LATIN CAPITAL LETTER D
0x45	0x0045	#LATIN CAPITAL LETTER E
0x46	0x0046	#LATIN CAPITAL LETTER F
0x47	0x0047	#LATIN CAPITAL LETTER G
0x48	0x0048	#LATIN CAPITAL LETTER H
0x49	0x0049	#LATIN CAPITAL LETTER I
0x4A	0x004A	#LATIN CAPITAL LETTER J
0x4B	0x004B	#LATIN CAPITAL LETTER K
0x4C	0x004C	#LATIN CAPITAL LETTER L
0x4D	0x004D	#LATIN CAPITAL LETTER M
0x4E	0x004E	#LATIN CAPITAL LETTER N
0x4F	0x004F	#LATIN CAPITAL LETTER O
0x50	0x0050	#LATIN CAPITAL LETTER P
0x51	0x0051	#LATIN CAPITAL LETTER Q
0x52	0x0052	#LATIN CAPITAL LETTER R
0x53	0x0053	#LATIN CAPITAL LETTER S
0x54	0x0054	#LATIN CAPITAL LETTER T
0x55	0x0055	#LATIN CAPITAL LETTER U
0x56	0x0056	#LATIN CAPITAL LETTER V
0x57	0x0057	#LATIN CAPITAL LETTER W
0x58	0x0058	#LATIN CAPITAL LETTER X
0x59	0x0059	#LATIN CAPITAL LETTER Y
0x5A	0x005A	#LATIN CAPITAL LETTER Z
0x5B	0x005B	#LEFT SQUARE BRACKET
0x5C	0x005C	#REVERSE SOLIDUS
0x5D	0x005D	#RIGHT SQUARE BRACKET
0x5E	0x005E	#CIRCUMFLEX ACCENT
0x5F	0x005F	#LOW LINE
0x60	0x0060	#GRAVE ACCENT
0x61	0x0061	#LATIN SMALL LETTER A
0x62	0x0062	#LATIN SMALL LETTER B
0x63	0x0063	#LATIN SMALL LETTER C
0x64	0x0064	#LATIN SMALL LETTER D
0x65	0x0065	#LATIN SMALL LETTER E
0x66	0x0066	#LATIN SMALL LETTER F
0x67	0x0067	#LATIN SMALL LETTER G
0x68	0x0068	#LATIN SMALL LETTER H
0x69	0x0069	#LATIN SMALL LETTER I
0x6A	0x006A	#LATIN SMALL LETTER J
0x6B	0x006B	#LATIN SMALL LETTER K
0x6C	0x006C	#LATIN SMALL LETTER L
0x6D	0x006D	#LATIN SMALL LETTER M
0x6E	0x006E	#LATIN SMALL LETTER N
0x6F	0x006F	#LATIN SMALL LETTER O
0x70	0x0070	#LATIN SMALL LETTER P
0x71	0x0071	#LATIN SMALL LETTER Q
0x72	0x0072	#LATIN SMALL LETTER R
0x73	0x0073	#LATIN SMALL LETTER S
0x74	0x0074	#LATIN SMALL LETTER T
0x75	0x0075	#LATIN SMALL LETTER U
0x76	0x0076	#LATIN SMALL LETTER V
0x77	0x0077	#LATIN SMALL LETTER W
0x78	0x0078	#LATIN SMALL LETTER X
0x79	0x0079	#LATIN SMALL LETTER Y
0x7A	0x007A	#LATIN SMALL LETTER Z
0x7B	0x007B	#LEFT CURLY BRACKET
0x7C	0x007C	#VERTICAL LINE
0x7D	0x007D	#RIGHT CURLY BRACKET
0x7E	0x007E	#TILDE
0x7F	0x007F	#DELETE
0x80	0x0402	#CYRILLIC CAPITAL LETTER DJE
0x81	0x0403	#CYRILLIC CAPITAL LETTER GJE
0x82	0x201A	#SINGLE LOW-9 QUOTATION MARK
0x83	0x0453	#CYRILLIC SMALL LETTER GJE
0x84	0x201E	#DOUBLE LOW-9 QUOTATION MARK
0x85	0x2026	#HORIZONTAL ELLIPSIS
0x86	0x2020	#DAGGER
0x87	0x2021	#DOUBLE DAGGER
0x88	0x20AC	#EURO SIGN
0x89	0x2030	#PER MILLE SIGN
0x8A	0x0409	#CYRILLIC CAPITAL LETTER LJE
0x8B	0x2039	#SINGLE LEFT-POINTING ANGLE QUOTATION MARK
0x8C	0x040A	#CYRILLIC CAPITAL LETTER NJE
0x8D	0x040C	#CYRILLIC CAPITAL LETTER KJE
0x8E	0x040B	#CYRILLIC CAPITAL LETTER TSHE
0x8F	0x040F	#CYRILLIC CAPITAL LETTER DZHE
0x90	0x0452	#CYRILLIC SMALL LETTER DJE
0x91	0x2018	#LEFT SINGLE QUOTATION MARK
0x92	0x2019	#RIGHT SINGLE QUOTATION MARK
0x93	0x201C	#LEFT DOUBLE QUOTATION MARK
0x94	0x201D	#RIGHT DOUBLE QUOTATION MARK
0x95	0x2022	#BULLET
0x96	0x2013	#EN DASH
0x97	0x2014	#EM DASH
0x98	      	#UNDEFINED
0x99	0x2122	#TRADE MARK SIGN
0x9A	0x0459	#CYRILLIC SMALL LETTER LJE
0x9B	0x203A	#SINGLE RIGHT-POINTING ANGLE QUOTATION MARK
0x9C	0x045A	#CYRILLIC SMALL LETTER NJE
0x9D	0x045C	#CYRILLIC SMALL LETTER KJE
0x9E	0x045B	#CYRILLIC SMALL LETTER TSHE
0x9F	0x045F	#CYRILLIC SMALL LETTER DZHE
0xA0	0x00A0	#NO-BREAK SPACE
0xA1	0x040E	#CYRILLIC CAPITAL LETTER SHORT U
0xA2	0x045E	#CYRILLIC SMALL LETTER SHORT U
0xA3	0x0408	#CYRILLIC CAPITAL LETTER JE
0xA4	0x00A4	#CURRENCY SIGN
0xA5	0x0490	#CYRILLIC CAPITAL LETTER GHE WITH UPTURN
0xA6	0x00A6	#BROKEN BAR
0xA7	0x00A7	#SECTION SIGN
0xA8	0x0401	#CYRILLIC CAPITAL LETTER IO
0xA9	0x00A9	#COPYRIGHT SIGN
0xAA	0x0404	#CYRILLIC CAPITAL LETTER UKRAINIAN IE
0xAB	0x00AB	#LEFT-POINTING DOUBLE ANGLE QUOTATION MARK
0xAC	0x00AC	#NOT SIGN
0xAD	0x00AD	#SOFT HYPHEN
0xAE	0x00AE	#REGISTERED SIGN
0xAF	0x0407	#CYRILLIC CAPITAL LETTER YI
0xB0	0x00B0	#DEGREE SIGN
0xB1	0x00B1	#PLUS-MINUS SIGN
0xB2	0x0406	#CYRILLIC CAPITAL LETTER BYELORUSSIAN-UKRAINIAN I
0xB3	0x0456	#CYRILLIC SMALL LETTER BYELORUSSIAN-UKRAINIAN I
0xB4	0x0491	#CYRILLIC SMALL LETTER GHE WITH UPTURN
0xB5	0x00B5	#MICRO SIGN
0xB6	0x00B6	#PILCROW SIGN
0xB7	0x00B7	#MIDDLE DOT
0xB8	0x0451	#CYRILLIC SMALL LETTER IO
0xB9	0x2116	#NUMERO SIGN
0xBA	0x0454	#CYRILLIC SMALL LETTER UKRAINIAN IE
0xBB	0x00BB	#RIGHT-POINTING DOUBLE ANGLE QUOTATION MARK
0xBC	0x0458	#CYRILLIC SMALL LETTER JE
0xBD	0x0405	#CYRILLIC CAPITAL LETTER DZE
0xBE	0x0455	#CYRILLIC SMALL LETTER DZE
0xBF	0x0457	#CYRILLIC SMALL LETTER YI
0xC0	0x0410	#CYRILLIC CAPITAL LETTER A
0xC1	0x0411	#CYRILLIC CAPITAL LETTER BE
0xC2	0x0412	#CYRILLIC CAPITAL LETTER VE
0xC3	0x0413	#CYRILLIC CAPITAL LETTER GHE
0xC4	0x0414	#CYRILLIC CAPITAL LETTER DE
0xC5	0x0415	#CYRILLIC CAPITAL LETTER IE
0xC6	0x0416	#CYRILLIC CAPITAL LETTER ZHE
0xC7	0x0417	#CYRILLIC CAPITAL LETTER ZE
0xC8	0x0418	#CYRILLIC CAPITAL LETTER I
0xC9	0x0419	#CYRILLIC CAPITAL LETTER SHORT I
0xCA	0x041A	#CYRILLIC CAPITAL LETTER KA
0xCB	0x041B	#CYRILLIC CAPITAL LETTER EL
0xCC	0x041C	#CYRILLIC CAPITAL LETTER EM
0xCD	0x041D	#CYRILLIC CAPITAL LETTER EN
0xCE	0x041E	#CYRILLIC CAPITAL LETTER O
0xCF	0x041F	#CYRILLIC CAPITAL LETTER PE
0xD0	0x0420	#CYRILLIC CAPITAL LETTER ER
0xD1	0x0421	#CYRILLIC CAPITAL LETTER ES
0xD2	0x0422	#CYRILLIC CAPITAL LETTER TE
0xD3	0x0423	#CYRILLIC CAPITAL LETTER U
0xD4	0x0424	#CYRILLIC CAPITAL LETTER EF
0xD5	0x0425	#CYRILLIC CAPITAL LETTER HA
0xD6	0x0426	#CYRILLIC CAPITAL LETTER TSE
0xD7	0x0427	#CYRILLIC CAPITAL LETTER CHE
0xD8	0x0428	#CYRILLIC CAPITAL LETTER SHA
0xD9	0x0429	#CYRILLIC CAPITAL LETTER SHCHA
0xDA	0x042A	#CYRILLIC CAPITAL LETTER HARD SIGN
0xDB	0x042B	#CYRILLIC CAPITAL LETTER YERU
0xDC	0x042C	#CYRILLIC CAPITAL LETTER SOFT SIGN
0xDD	0x042D	#CYRILLIC CAPITAL LETTER E
0xDE	0x042E	#CYRILLIC CAPITAL LETTER YU
0xDF	0x042F	#CYRILLIC CAPITAL LETTER YA
0xE0	0x0430	#CYRILLIC SMALL LETTER A
0xE1	0x0431	#CYRILLIC SMALL LETTER BE
0xE2	0x0432	#CYRILLIC SMALL LETTER VE
0xE3	0x0433	#CYRILLIC SMALL LETTER GHE
0xE4	0x0434	#CYRILLIC SMALL LETTER DE
0xE5	0x0435	#CYRILLIC SMALL LETTER IE
0xE6	0x0436	#CYRILLIC SMALL LETTER ZHE
0xE7	0x0437	#CYRILLIC SMALL LETTER ZE
0xE8	0x0438	#CYRILLIC SMALL LETTER I
0xE9	0x0439	#CYRILLIC SMALL LETTER SHORT I
0xEA	0x043A	#CYRILLIC SMALL LETTER KA
0xEB	0x043B	#CYRILLIC SMALL LETTER EL
0xEC	0x043C	#CYRILLIC SMALL LETTER EM
0xED	0x043D	#CYRILLIC SMALL LETTER EN
0xEE	0x043E	#CYRILLIC SMALL LETTER O
0xEF	0x043F	#CYRILLIC SMALL LETTER PE
0xF0	0x0440	#CYRILLIC SMALL LETTER ER
0xF1	0x0441	#CYRILLIC SMALL LETTER ES
0xF2	0x0442	#CYRILLIC SMALL LETTER TE
0xF3	0x0443	#CYRILLIC SMALL LETTER U
0xF4	0x0444	#CYRILLIC SMALL LETTER EF
0xF5	0x0445	#CYRILLIC SMALL LETTER HA
0xF6	0x0446	#CYRILLIC SMALL LETTER TSE
0xF7	0x0447	#CYRILLIC SMALL LETTER CHE
0xF8	0x0448	#CYRILLIC SMALL LETTER SHA
0xF9	0x0449	#CYRILLIC SMALL LETTER SHCHA
0xFA	0x044A	#CYRILLIC SMALL LETTER HARD SIGN
0xFB	0x044B	#CYRILLIC SMALL LETTER YERU
0xFC	0x044C	#CYRILLIC SMALL LETTER SOFT SIGN
0xFD	0x044D	#CYRILLIC SMALL LETTER E
0xFE	0x044E	#CYRILLIC SMALL LETTER YU
0xFF	0x044F	#CYRILLIC SMALL LETTER YA
"#

/-- src/generated/single_byte/windows-cp1251_tables.rs.inc:1-72 -/
noncomputable def windows_1251_source : List Text := lines! r#"// This file is auto-generated.  Please see `encoding_tables/single_byte/`
// from the root directory for the files that generate this.

use {DecodeResult, EncodeResult};

pub fn decode_to_str<'a>(
    input: &[u8],
    out_buffer: &'a mut [u8],
) -> DecodeResult<'a> {
    super::ascii_ext_decode_to_str(&DECODE_TABLE, input, out_buffer)
}

pub fn encode_from_str<'a>(
    input: &str,
    out_buffer: &'a mut [u8],
) -> EncodeResult<'a> {
    super::ascii_ext_encode_from_str(&ENCODE_TABLE, input, out_buffer)
}

const DECODE_TABLE: [char; 128] = [
    '\u{0402}','\u{0403}','\u{201A}','\u{0453}','\u{201E}','\u{2026}','\u{2020}','\u{2021}',
    '\u{20AC}','\u{2030}','\u{0409}','\u{2039}','\u{040A}','\u{040C}','\u{040B}','\u{040F}',
    '\u{0452}','\u{2018}','\u{2019}','\u{201C}','\u{201D}','\u{2022}','\u{2013}','\u{2014}',
    '�','\u{2122}','\u{0459}','\u{203A}','\u{045A}','\u{045C}','\u{045B}','\u{045F}',
    '\u{00A0}','\u{040E}','\u{045E}','\u{0408}','\u{00A4}','\u{0490}','\u{00A6}','\u{00A7}',
    '\u{0401}','\u{00A9}','\u{0404}','\u{00AB}','\u{00AC}','\u{00AD}','\u{00AE}','\u{0407}',
    '\u{00B0}','\u{00B1}','\u{0406}','\u{0456}','\u{0491}','\u{00B5}','\u{00B6}','\u{00B7}',
    '\u{0451}','\u{2116}','\u{0454}','\u{00BB}','\u{0458}','\u{0405}','\u{0455}','\u{0457}',
    '\u{0410}','\u{0411}','\u{0412}','\u{0413}','\u{0414}','\u{0415}','\u{0416}','\u{0417}',
    '\u{0418}','\u{0419}','\u{041A}','\u{041B}','\u{041C}','\u{041D}','\u{041E}','\u{041F}',
    '\u{0420}','\u{0421}','\u{0422}','\u{0423}','\u{0424}','\u{0425}','\u{0426}','\u{0427}',
    '\u{0428}','\u{0429}','\u{042A}','\u{042B}','\u{042C}','\u{042D}','\u{042E}','\u{042F}',
    '\u{0430}','\u{0431}','\u{0432}','\u{0433}','\u{0434}','\u{0435}','\u{0436}','\u{0437}',
    '\u{0438}','\u{0439}','\u{043A}','\u{043B}','\u{043C}','\u{043D}','\u{043E}','\u{043F}',
    '\u{0440}','\u{0441}','\u{0442}','\u{0443}','\u{0444}','\u{0445}','\u{0446}','\u{0447}',
    '\u{0448}','\u{0449}','\u{044A}','\u{044B}','\u{044C}','\u{044D}','\u{044E}','\u{044F}',
];

const ENCODE_TABLE: [(char, u8); 127] = [
    ('\u{00A0}', 0xA0), ('\u{00A4}', 0xA4), ('\u{00A6}', 0xA6), ('\u{00A7}', 0xA7), 
    ('\u{00A9}', 0xA9), ('\u{00AB}', 0xAB), ('\u{00AC}', 0xAC), ('\u{00AD}', 0xAD), 
    ('\u{00AE}', 0xAE), ('\u{00B0}', 0xB0), ('\u{00B1}', 0xB1), ('\u{00B5}', 0xB5), 
    ('\u{00B6}', 0xB6), ('\u{00B7}', 0xB7), ('\u{00BB}', 0xBB), ('\u{0401}', 0xA8), 
    ('\u{0402}', 0x80), ('\u{0403}', 0x81), ('\u{0404}', 0xAA), ('\u{0405}', 0xBD), 
    ('\u{0406}', 0xB2), ('\u{0407}', 0xAF), ('\u{0408}', 0xA3), ('\u{0409}', 0x8A), 
    ('\u{040A}', 0x8C), ('\u{040B}', 0x8E), ('\u{040C}', 0x8D), ('\u{040E}', 0xA1), 
    ('\u{040F}', 0x8F), ('\u{0410}', 0xC0), ('\u{0411}', 0xC1), ('\u{0412}', 0xC2), 
    ('\u{0413}', 0xC3), ('\u{0414}', 0xC4), ('\u{0415}', 0xC5), ('\u{0416}', 0xC6), 
    ('\u{0417}', 0xC7), ('\u{0418}', 0xC8), ('\u{0419}', 0xC9), ('\u{041A}', 0xCA), 
    ('\u{041B}', 0xCB), ('\u{041C}', 0xCC), ('\u{041D}', 0xCD), ('\u{041E}', 0xCE), 
    ('\u{041F}', 0xCF), ('\u{0420}', 0xD0), ('\u{0421}', 0xD1), ('\u{0422}', 0xD2), 
    ('\u{0423}', 0xD3), ('\u{0424}', 0xD4), ('\u{0425}', 0xD5), ('\u{0426}', 0xD6), 
    ('\u{0427}', 0xD7), ('\u{0428}', 0xD8), ('\u{0429}', 0xD9), ('\u{042A}', 0xDA), 
    ('\u{042B}', 0xDB), ('\u{042C}', 0xDC), ('\u{042D}', 0xDD), ('\u{042E}', 0xDE), 
    ('\u{042F}', 0xDF), ('\u{0430}', 0xE0), ('\u{0431}', 0xE1), ('\u{0432}', 0xE2), 
    ('\u{0433}', 0xE3), ('\u{0434}', 0xE4), ('\u{0435}', 0xE5), ('\u{0436}', 0xE6), 
    ('\u{0437}', 0xE7), ('\u{0438}', 0xE8), ('\u{0439}', 0xE9), ('\u{043A}', 0xEA), 
    ('\u{043B}', 0xEB), ('\u{043C}', 0xEC), ('\u{043D}', 0xED), ('\u{043E}', 0xEE), 
    ('\u{043F}', 0xEF), ('\u{0440}', 0xF0), ('\u{0441}', 0xF1), ('\u{0442}', 0xF2), 
    ('\u{0443}', 0xF3), ('\u{0444}', 0xF4), ('\u{0445}', 0xF5), ('\u{0446}', 0xF6), 
    ('\u{0447}', 0xF7), ('\u{0448}', 0xF8), ('\u{0449}', 0xF9), ('\u{044A}', 0xFA), 
    ('\u{044B}', 0xFB), ('\u{044C}', 0xFC), ('\u{044D}', 0xFD), ('\u{044E}', 0xFE), 
    ('\u{044F}', 0xFF), ('\u{0451}', 0xB8), ('\u{0452}', 0x90), ('\u{0453}', 0x83), 
    ('\u{0454}', 0xBA), ('\u{0455}', 0xBE), ('\u{0456}', 0xB3), ('\u{0457}', 0xBF), 
    ('\u{0458}', 0xBC), ('\u{0459}', 0x9A), ('\u{045A}', 0x9C), ('\u{045B}', 0x9E), 
    ('\u{045C}', 0x9D), ('\u{045E}', 0xA2), ('\u{045F}', 0x9F), ('\u{0490}', 0xA5), 
    ('\u{0491}', 0xB4), ('\u{2013}', 0x96), ('\u{2014}', 0x97), ('\u{2018}', 0x91), 
    ('\u{2019}', 0x92), ('\u{201A}', 0x82), ('\u{201C}', 0x93), ('\u{201D}', 0x94), 
    ('\u{201E}', 0x84), ('\u{2020}', 0x86), ('\u{2021}', 0x87), ('\u{2022}', 0x95), 
    ('\u{2026}', 0x85), ('\u{2030}', 0x89), ('\u{2039}', 0x8B), ('\u{203A}', 0x9B), 
    ('\u{20AC}', 0x88), ('\u{2116}', 0xB9), ('\u{2122}', 0x99), 
];
"#

/-- encoding_tables/single_byte/ascii_ext/windows-cp1252.txt:1-274 -/
noncomputable def windows_1252_mapping : List Text := lines! r#"#
#    Name:     cp1252 to Unicode table
#    Unicode version: 2.0
#    Table version: 2.01
#    Table format:  Format A
#    Date:          04/15/98
#
#    Contact:       Shawn.Steele@microsoft.com
#
#    General notes: none
#
#    Format: Three tab-separated columns
#        Column #1 is the cp1252 code (in hex)
#        Column #2 is the Unicode (in hex as 0xXXXX)
#        Column #3 is the Unicode name (follows a comment sign, '#')
#
#    The entries are in cp1252 order
#
0x00	0x0000	#NULL
0x01	0x0001	#START OF HEADING
0x02	0x0002	#START OF TEXT
0x03	0x0003	#END OF TEXT
0x04	0x0004	#END OF TRANSMISSION
0x05	0x0005	#ENQUIRY
0x06	0x0006	#ACKNOWLEDGE
0x07	0x0007	#BELL
0x08	0x0008	#BACKSPACE
0x09	0x0009	#HORIZONTAL TABULATION
0x0A	0x000A	#LINE FEED
0x0B	0x000B	#VERTICAL TABULATION
0x0C	0x000C	#FORM FEED
0x0D	0x000D	#CARRIAGE RETURN
0x0E	0x000E	#SHIFT OUT
0x0F	0x000F	#SHIFT IN
0x10	0x0010	#DATA LINK ESCAPE
0x11	0x0011	#DEVICE CONTROL ONE
0x12	0x0012	#DEVICE CONTROL TWO
0x13	0x0013	#DEVICE CONTROL THREE
0x14	0x0014	#DEVICE CONTROL FOUR
0x15	0x0015	#NEGATIVE ACKNOWLEDGE
0x16	0x0016	#SYNCHRONOUS IDLE
0x17	0x0017	#END OF TRANSMISSION BLOCK
0x18	0x0018	#CANCEL
0x19	0x0019	#END OF MEDIUM
0x1A	0x001A	#SUBSTITUTE
0x1B	0x001B	#ESCAPE
0x1C	0x001C	#FILE SEPARATOR
0x1D	0x001D	#GROUP SEPARATOR
0x1E	0x001E	#RECORD SEPARATOR
0x1F	0x001F	#UNIT SEPARATOR
0x20	0x0020	#SPACE
0x21	0x0021	#EXCLAMATION MARK
0x22	0x0022	#QUOTATION MARK
0x23	0x0023	#NUMBER SIGN
0x24	0x0024	#DOLLAR SIGN
0x25	0x0025	#PERCENT SIGN
0x26	0x0026	#AMPERSAND
0x27	0x0027	#APOSTROPHE
0x28	0x0028	#LEFT PARENTHESIS
0x29	0x0029	#RIGHT PARENTHESIS
0x2A	0x002A	#ASTERISK
0x2B	0x002B	#PLUS SIGN
0x2C	0x002C	#COMMA
0x2D	0x002D	#HYPHEN-MINUS
0x2E	0x002E	#FULL STOP
0x2F	0x002F	#SOLIDUS
0x30	0x0030	#DIGIT ZERO
0x31	0x0031	#DIGIT ONE
0x32	0x0032	#DIGIT TWO
0x33	0x0033	#DIGIT THREE
0x34	0x0034	#DIGIT FOUR
0x35	0x0035	#DIGIT FIVE
0x36	0x0036	#DIGIT SIX
0x37	0x0037	#DIGIT SEVEN
0x38	0x0038	#DIGIT EIGHT
0x39	0x0039	#DIGIT NINE
0x3A	0x003A	#COLON
0x3B	0x003B	#SEMICOLON
0x3C	0x003C	#LESS-THAN SIGN
0x3D	0x003D	#EQUALS SIGN
0x3E	0x003E	#GREATER-THAN SIGN
0x3F	0x003F	#QUESTION MARK
0x40	0x0040	#COMMERCIAL AT
0x41	0x0041	#LATIN CAPITAL LETTER A
0x42	0x0042	#LATIN CAPITAL LETTER B
0x43	0x0043	#LATIN CAPITAL LETTER C
0x44	0x0044	#LATIN CAPITAL LETTER D
0x45	0x0045	#LATIN CAPITAL LETTER E
0x46	0x0046	#LATIN CAPITAL LETTER F
0x47	0x0047	#LATIN CAPITAL LETTER G
0x48	0x0048	#LATIN CAPITAL LETTER H
0x49	0x0049	#LATIN CAPITAL LETTER I
0x4A	0x004A	#LATIN CAPITAL LETTER J
0x4B	0x004B	#LATIN CAPITAL LETTER K
0x4C	0x004C	#LATIN CAPITAL LETTER L
0x4D	0x004D	#LATIN CAPITAL LETTER M
0x4E	0x004E	#LATIN CAPITAL LETTER N
0x4F	0x004F	#LATIN CAPITAL LETTER O
0x50	0x0050	#LATIN CAPITAL LETTER P
0x51	0x0051	#LATIN CAPITAL LETTER Q
0x52	0x0052	#LATIN CAPITAL LETTER R
0x53	0x0053	#LATIN CAPITAL LETTER S
0x54	0x0054	#LATIN CAPITAL LETTER T
0x55	0x0055	#LATIN CAPITAL LETTER U
0x56	0x0056	#LATIN CAPITAL LETTER V
0x57	0x0057	#LATIN CAPITAL LETTER W
0x58	0x0058	#LATIN CAPITAL LETTER X
0x59	0x0059	#LATIN CAPITAL LETTER Y
0x5A	0x005A	#LATIN CAPITAL LETTER Z
0x5B	0x005B	#LEFT SQUARE BRACKET
0x5C	0x005C	#REVERSE SOLIDUS
0x5D	0x005D	#RIGHT SQUARE BRACKET
0x5E	0x005E	#CIRCUMFLEX ACCENT
0x5F	0x005F	#LOW LINE
0x60	0x0060	#GRAVE ACCENT
0x61	0x0061	#LATIN SMALL LETTER A
0x62	0x0062	#LATIN SMALL LETTER B
0x63	0x0063	#LATIN SMALL LETTER C
0x64	0x0064	#LATIN SMALL LETTER D
0x65	0x0065	#LATIN SMALL LETTER E
0x66	0x0066	#LATIN SMALL LETTER F
0x67	0x0067	#LATIN SMALL LETTER G
0x68	0x0068	#LATIN SMALL LETTER H
0x69	0x0069	#LATIN SMALL LETTER I
0x6A	0x006A	#LATIN SMALL LETTER J
0x6B	0x006B	#LATIN SMALL LETTER K
0x6C	0x006C	#LATIN SMALL LETTER L
0x6D	0x006D	#LATIN SMALL LETTER M
0x6E	0x006E	#LATIN SMALL LETTER N
0x6F	0x006F	#LATIN SMALL LETTER O
0x70	0x0070	#LATIN SMALL LETTER P
0x71	0x0071	#LATIN SMALL LETTER Q
0x72	0x0072	#LATIN SMALL LETTER R
0x73	0x0073	#LATIN SMALL LETTER S
0x74	0x0074	#LATIN SMALL LETTER T
0x75	0x0075	#LATIN SMALL LETTER U
0x76	0x0076	#LATIN SMALL LETTER V
0x77	0x0077	#LATIN SMALL LETTER W
0x78	0x0078	#LATIN SMALL LETTER X
0x79	0x0079	#LATIN SMALL LETTER Y
0x7A	0x007A	#LATIN SMALL LETTER Z
0x7B	0x007B	#LEFT CURLY BRACKET
0x7C	0x007C	#VERTICAL LINE
0x7D	0x007D	#RIGHT CURLY BRACKET
0x7E	0x007E	#TILDE
0x7F	0x007F	#DELETE
0x80	0x20AC	#EURO SIGN
0x81	      	#UNDEFINED
0x82	0x201A	#SINGLE LOW-9 QUOTATION MARK
0x83	0x0192	#LATIN SMALL LETTER F WITH HOOK
0x84	0x201E	#DOUBLE LOW-9 QUOTATION MARK
0x85	0x2026	#HORIZONTAL ELLIPSIS
0x86	0x2020	#DAGGER
0x87	0x2021	#DOUBLE DAGGER
0x88	0x02C6	#MODIFIER LETTER CIRCUMFLEX ACCENT
0x89	0x2030	#PER MILLE SIGN
0x8A	0x0160	#LATIN CAPITAL LETTER S WITH CARON
0x8B	0x2039	#SINGLE LEFT-POINTING ANGLE QUOTATION MARK
0x8C	0x0152	#LATIN CAPITAL LIGATURE OE
0x8D	      	#UNDEFINED
0x8E	0x017D	#LATIN CAPITAL LETTER Z WITH CARON
0x8F	      	#UNDEFINED
0x90	      	#UNDEFINED
0x91	0x2018	#LEFT SINGLE QUOTATION MARK
0x92	0x2019	#RIGHT SINGLE QUOTATION MARK
0x93	0x201C	#LEFT DOUBLE QUOTATION MARK
0x94	0x201D	#RIGHT DOUBLE QUOTATION MARK
0x95	0x2022	#BULLET
0x96	0x2013	#EN DASH
0x97	0x2014	#EM DASH
0x98	0x02DC	#SMALL TILDE
0x99	0x2122	#TRADE MARK SIGN
0x9A	0x0161	#LATIN SMALL LETTER S WITH CARON
0x9B	0x203A	#SINGLE RIGHT-POINTING ANGLE QUOTATION MARK
0x9C	0x0153	#LATIN SMALL LIGATURE OE
0x9D	      	#UNDEFINED
0x9E	0x017E	#LATIN SMALL LETTER Z WITH CARON
0x9F	0x0178	#LATIN CAPITAL LETTER Y WITH DIAERESIS
0xA0	0x00A0	#NO-BREAK SPACE
0xA1	0x00A1	#INVERTED EXCLAMATION MARK
0xA2	0x00A2	#CENT SIGN
0xA3	0x00A3	#POUND SIGN
0xA4	0x00A4	#CURRENCY SIGN
0xA5	0x00A5	#YEN SIGN
0xA6	0x00A6	#BROKEN BAR
0xA7	0x00A7	#SECTION SIGN
0xA8	0x00A8	#DIAERESIS
0xA9	0x00A9	#COPYRIGHT SIGN
0xAA	0x00AA	#FEMININE ORDINAL INDICATOR
0xAB	0x00AB	#LEFT-POINTING DOUBLE ANGLE QUOTATION MARK
0xAC	0x00AC	#NOT SIGN
0xAD	0x00AD	#SOFT HYPHEN
0xAE	0x00AE	#REGISTERED SIGN
0xAF	0x00AF	#MACRON
0xB0	0x00B0	#DEGREE SIGN
0xB1	0x00B1	#PLUS-MINUS SIGN
0xB2	0x00B2	#SUPERSCRIPT TWO
0xB3	0x00B3	#SUPERSCRIPT THREE
0xB4	0x00B4	#ACUTE ACCENT
0xB5	0x00B5	#MICRO SIGN
0xB6	0x00B6	#PILCROW SIGN
0xB7	0x00B7	#MIDDLE DOT
0xB8	0x00B8	#CEDILLA
0xB9	0x00B9	#SUPERSCRIPT ONE
0xBA	0x00BA	#MASCULINE ORDINAL INDICATOR
0xBB	0x00BB	#RIGHT-POINTING DOUBLE ANGLE QUOTATION MARK
0xBC	0x00BC	#VULGAR FRACTION ONE QUARTER
0xBD	0x00BD	#VULGAR FRACTION ONE HALF
0xBE	0x00BE	#VULGAR FRACTION THREE QUARTERS
0xBF	0x00BF	#INVERTED QUESTION MARK
0xC0	0x00C0	#LATIN CAPITAL LETTER A WITH GRAVE
0xC1	0x00C1	#LATIN CAPITAL LETTER A WITH ACUTE
0xC2	0x00C2	#LATIN CAPITAL LETTER A WITH CIRCUMFLEX
0xC3	0x00C3	#LATIN CAPITAL LETTER A WITH TILDE
0xC4	0x00C4	#LATIN CAPITAL LETTER A WITH DIAERESIS
0xC5	0x00C5	#LATIN CAPITAL LETTER A WITH RING ABOVE
0xC6	0x00C6	#LATIN CAPITAL LETTER AE
0xC7	0x00C7	#LATIN CAPITAL LETTER C WITH CEDILLA
0xC8	0x00C8	#LATIN CAPITAL LETTER E WITH GRAVE
0xC9	0x00C9	#LATIN CAPITAL LETTER E WITH ACUTE
0xCA	0x00CA	#LATIN CAPITAL LETTER E WITH CIRCUMFLEX
0xCB	0x00CB	#LATIN CAPITAL LETTER E WITH DIAERESIS
0xCC	0x00CC	#LATIN CAPITAL LETTER I WITH GRAVE
0xCD	0x00CD	#LATIN CAPITAL LETTER I WITH ACUTE
0xCE	0x00CE	#LATIN CAPITAL LETTER I WITH CIRCUMFLEX
0xCF	0x00CF	#LATIN CAPITAL LETTER I WITH DIAERESIS
0xD0	0x00D0	#LATIN CAPITAL LETTER ETH
0xD1	0x00D1	#LATIN CAPITAL LETTER N WITH TILDE
0xD2	0x00D2	#LATIN CAPITAL LETTER O WITH GRAVE
0xD3	0x00D3	#LATIN CAPITAL LETTER O WITH ACUTE
0xD4	0x00D4	#LATIN CAPITAL LETTER O WITH CIRCUMFLEX
0xD5	0x00D5	#LATIN CAPITAL LETTER O WITH TILDE
0xD6	0x00D6	#LATIN CAPITAL LETTER O WITH DIAERESIS
0xD7	0x00D7	#MULTIPLICATION SIGN
0xD8	0x00D8	#LATIN CAPITAL LETTER O WITH STROKE
0xD9	0x00D9	#LATIN CAPITAL LETTER U WITH GRAVE
0xDA	0x00DA	#LATIN CAPITAL LETTER U WITH ACUTE
0xDB	0x00DB	#LATIN CAPITAL LETTER U WITH CIRCUMFLEX
0xDC	0x00DC	#LATIN CAPITAL LETTER U WITH DIAERESIS
0xDD	0x00DD	#LATIN CAPITAL LETTER Y WITH ACUTE
0xDE	0x00DE	#LATIN CAPITAL LETTER THORN
0xDF	0x00DF	#LATIN SMALL LETTER SHARP S
0xE0	0x00E0	#LATIN SMALL LETTER A WITH GRAVE
0xE1	0x00E1	#LATIN SMALL LETTER A WITH ACUTE
0xE2	0x00E2	#LATIN SMALL LETTER A WITH CIRCUMFLEX
0xE3	0x00E3	#LATIN SMALL LETTER A WITH TILDE
0xE4	0x00E4	#LATIN SMALL LETTER A WITH DIAERESIS
0xE5	0x00E5	#LATIN SMALL LETTER A WITH RING ABOVE
0xE6	0x00E6	#LATIN SMALL LETTER AE
0xE7	0x00E7	#LATIN SMALL LETTER C WITH CEDILLA
0xE8	0x00E8	#LATIN SMALL LETTER E WITH GRAVE
0xE9	0x00E9	#LATIN SMALL LETTER E WITH ACUTE
0xEA	0x00EA	#LATIN SMALL LETTER E WITH CIRCUMFLEX
0xEB	0x00EB	#LATIN SMALL LETTER E WITH DIAERESIS
0xEC	0x00EC	#LATIN SMALL LETTER I WITH GRAVE
0xED	0x00ED	#LATIN SMALL LETTER I WITH ACUTE
0xEE	0x00EE	#LATIN SMALL LETTER I WITH CIRCUMFLEX
0xEF	0x00EF	#LATIN SMALL LETTER I WITH DIAERESIS
0xF0	0x00F0	#LATIN SMALL LETTER ETH
0xF1	0x00F1	#LATIN SMALL LETTER N WITH TILDE
0xF2	0x00F2	#LATIN SMALL LETTER O WITH GRAVE
0xF3	0x00F3	#LATIN SMALL LETTER O WITH ACUTE
0xF4	0x00F4	#LATIN SMALL LETTER O WITH CIRCUMFLEX
0xF5	0x00F5	#LATIN SMALL LETTER O WITH TILDE
0xF6	0x00F6	#LATIN SMALL LETTER O WITH DIAERESIS
0xF7	0x00F7	#DIVISION SIGN
0xF8	0x00F8	#LATIN SMALL LETTER O WITH STROKE
0xF9	0x00F9	#LATIN SMALL LETTER U WITH GRAVE
0xFA	0x00FA	#LATIN SMALL LETTER U WITH ACUTE
0xFB	0x00FB	#LATIN SMALL LETTER U WITH CIRCUMFLEX
0xFC	0x00FC	#LATIN SMALL LETTER U WITH DIAERESIS
0xFD	0x00FD	#LATIN SMALL LETTER Y WITH ACUTE
0xFE	0x00FE	#LATIN SMALL LETTER THORN
0xFF	0x00FF	#LATIN SMALL LETTER Y WITH DIAERESIS
"#

/-- src/generated/single_byte/windows-cp1252_tables.rs.inc:1-71 -/
noncomputable def windows_1252_source : List Text := lines! r#"// This file is auto-generated.  Please see `encoding_tables/single_byte/`
// from the root directory for the files that generate this.

use {DecodeResult, EncodeResult};

pub fn decode_to_str<'a>(
    input: &[u8],
    out_buffer: &'a mut [u8],
) -> DecodeResult<'a> {
    super::ascii_ext_decode_to_str(&DECODE_TABLE, input, out_buffer)
}

pub fn encode_from_str<'a>(
    input: &str,
    out_buffer: &'a mut [u8],
) -> EncodeResult<'a> {
    super::ascii_ext_encode_from_str(&ENCODE_TABLE, input, out_buffer)
}

const DECODE_TABLE: [char; 128] = [
    '\u{20AC}','�','\u{201A}','\u{0192}','\u{201E}','\u{2026}','\u{2020}','\u{2021}',
    '\u{02C6}','\u{2030}','\u{0160}','\u{2039}','\u{0152}','�','\u{017D}','�',
    '�','\u{2018}','\u{2019}','\u{201C}','\u{201D}','\u{2022}','\u{2013}','\u{2014}',
    '\u{02DC}','\u{2122}','\u{0161}','\u{203A}','\u{0153}','�','\u{017E}','\u{0178}',
    '\u{00A0}','\u{00A1}','\u{00A2}','\u{00A3}','\u{00A4}','\u{00A5}','\u{00A6}','\u{00A7}',
    '\u{00A8}','\u{00A9}','\u{00AA}','\u{00AB}','\u{00AC}','\u{00AD}','\u{00AE}','\u{00AF}',
    '\u{00B0}','\u{00B1}','\u{00B2}','\u{00B3}','\u{00B4}','\u{00B5}','\u{00B6}','\u{00B7}',
    '\u{00B8}','\u{00B9}','\u{00BA}','\u{00BB}','\u{00BC}','\u{00BD}','\u{00BE}','\u{00BF}',
    '\u{00C0}','\u{00C1}','\u{00C2}','\u{00C3}','\u{00C4}','\u{00C5}','\u{00C6}','\u{00C7}',
    '\u{00C8}','\u{00C9}','\u{00CA}','\u{00CB}','\u{00CC}','\u{00CD}','\u{00CE}','\u{00CF}',
    '\u{00D0}','\u{00D1}','\u{00D2}','\u{00D3}','\u{00D4}','\u{00D5}','\u{00D6}','\u{00D7}',
    '\u{00D8}','\u{00D9}','\u{00DA}','\u{00DB}','\u{00DC}','\u{00DD}','\u{00DE}','\u{00DF}',
    '\u{00E0}','\u{00E1}','\u{00E2}','\u{00E3}','\u{00E4}','\u{00E5}','\u{00E6}','\u{00E7}',
    '\u{00E8}','\u{00E9}','\u{00EA}','\u{00EB}','\u{00EC}','\u{00ED}','\u{00EE}','\u{00EF}',
    '\u{00F0}','\u{00F1}','\u{00F2}','\u{00F3}','\u{00F4}','\u{00F5}','\u{00F6}','\u{00F7}',
    '\u{00F8}','\u{00F9}','\u{00FA}','\u{00FB}','\u{00FC}','\u{00FD}','\u{00FE}','\u{00FF}',
];

const ENCODE_TABLE: [(char, u8); 123] = [
    ('\u{00A0}', 0xA0), ('\u{00A1}', 0xA1), ('\u{00A2}', 0xA2), ('\u{00A3}', 0xA3), 
    ('\u{00A4}', 0xA4), ('\u{00A5}', 0xA5), ('\u{00A6}', 0xA6), ('\u{00A7}', 0xA7), 
    ('\u{00A8}', 0xA8), ('\u{00A9}', 0xA9), ('\u{00AA}', 0xAA), ('\u{00AB}', 0xAB), 
    ('\u{00AC}', 0xAC), ('\u{00AD}', 0xAD), ('\u{00AE}', 0xAE), ('\u{00AF}', 0xAF), 
    ('\u{00B0}', 0xB0), ('\u{00B1}', 0xB1), ('\u{00B2}', 0xB2), ('\u{00B3}', 0xB3), 
    ('\u{00B4}', 0xB4), ('\u{00B5}', 0xB5), ('\u{00B6}', 0xB6), ('\u{00B7}', 0xB7), 
    ('\u{00B8}', 0xB8), ('\u{00B9}', 0xB9), ('\u{00BA}', 0xBA), ('\u{00BB}', 0xBB), 
    ('\u{00BC}', 0xBC), ('\u{00BD}', 0xBD), ('\u{00BE}', 0xBE), ('\u{00BF}', 0xBF), 
    ('\u{00C0}', 0xC0), ('\u{00C1}', 0xC1), ('\u{00C2}', 0xC2), ('\u{00C3}', 0xC3), 
    ('\u{00C4}', 0xC4), ('\u{00C5}', 0xC5), ('\u{00C6}', 0xC6), ('\u{00C7}', 0xC7), 
    ('\u{00C8}', 0xC8), ('\u{00C9}', 0xC9), ('\u{00CA}', 0xCA), ('\u{00CB}', 0xCB), 
    ('\u{00CC}', 0xCC), ('\u{00CD}', 0xCD), ('\u{00CE}', 0xCE), ('\u{00CF}', 0xCF), 
    ('\u{00D0}', 0xD0), ('\u{00D1}', 0xD1), ('\u{00D2}', 0xD2), ('\u{00D3}', 0xD3), 
    ('\u{00D4}', 0xD4), ('\u{00D5}', 0xD5), ('\u{00D6}', 0xD6), ('\u{00D7}', 0xD7), 
    ('\u{00D8}', 0xD8), ('\u{00D9}', 0xD9), ('\u{00DA}', 0xDA), ('\u{00DB}', 0xDB), 
    ('\u{00DC}', 0xDC), ('\u{00DD}', 0xDD), ('\u{00DE}', 0xDE), ('\u{00DF}', 0xDF), 
    ('\u{00E0}', 0xE0), ('\u{00E1}', 0xE1), ('\u{00E2}', 0xE2), ('\u{00E3}', 0xE3), 
    ('\u{00E4}', 0xE4), ('\u{00E5}', 0xE5), ('\u{00E6}', 0xE6), ('\u{00E7}', 0xE7), 
    ('\u{00E8}', 0xE8), ('\u{00E9}', 0xE9), ('\u{00EA}', 0xEA), ('\u{00EB}', 0xEB), 
    ('\u{00EC}', 0xEC), ('\u{00ED}', 0xED), ('\u{00EE}', 0xEE), ('\u{00EF}', 0xEF), 
    ('\u{00F0}', 0xF0), ('\u{00F1}', 0xF1), ('\u{00F2}', 0xF2), ('\u{00F3}', 0xF3), 
    ('\u{00F4}', 0xF4), ('\u{00F5}', 0xF5), ('\u{00F6}', 0xF6), ('\u{00F7}', 0xF7), 
    ('\u{00F8}', 0xF8), ('\u{00F9}', 0xF9), ('\u{00FA}', 0xFA), ('\u{00FB}', 0xFB), 
    ('\u{00FC}', 0xFC), ('\u{00FD}', 0xFD), ('\u{00FE}', 0xFE), ('\u{00FF}', 0xFF), 
    ('\u{0152}', 0x8C), ('\u{0153}', 0x9C), ('\u{0160}', 0x8A), ('\u{0161}', 0x9A), 
    ('\u{0178}', 0x9F), ('\u{017D}', 0x8E), ('\u{017E}', 0x9E), ('\u{0192}', 0x83), 
    ('\u{02C6}', 0x88), ('\u{02DC}', 0x98), ('\u{2013}', 0x96), ('\u{2014}', 0x97), 
    ('\u{2018}', 0x91), ('\u{2019}', 0x92), ('\u{201A}', 0x82), ('\u{201C}', 0x93), 
    ('\u{201D}', 0x94), ('\u{201E}', 0x84), ('\u{2020}', 0x86), ('\u{2021}', 0x87), 
    ('\u{2022}', 0x95), ('\u{2026}', 0x85), ('\u{2030}', 0x89), ('\u{2039}', 0x8B), 
    ('\u{203A}', 0x9B), ('\u{20AC}', 0x80), ('\u{2122}', 0x99), 
];
"#

/-- encoding_tables/single_byte/ascii_ext/windows-cp1253.txt:1-274 -/
noncomputable def windows_1253_mapping : List Text := lines! r#"#
#    Name:     cp1253 to Unicode table
#    Unicode version: 2.0
#    Table version: 2.01
#    Table format:  Format A
#    Date:          04/15/98
#
#    Contact:       Shawn.Steele@microsoft.com
#
#    General notes: none
#
#    Format: Three tab-separated columns
#        Column #1 is the cp1253 code (in hex)
#        Column #2 is the Unicode (in hex as 0xXXXX)
#        Column #3 is the Unicode name (follows a comment sign, '#')
#
#    The entries are in cp1253 order
#
0x00	0x0000	#NULL
0x01	0x0001	#START OF HEADING
0x02	0x0002	#START OF TEXT
0x03	0x0003	#END OF TEXT
0x04	0x0004	#END OF TRANSMISSION
0x05	0x0005	#ENQUIRY
0x06	0x0006	#ACKNOWLEDGE
0x07	0x0007	#BELL
0x08	0x0008	#BACKSPACE
0x09	0x0009	#HORIZONTAL TABULATION
0x0A	0x000A	#LINE FEED
0x0B	0x000B	#VERTICAL TABULATION
0x0C	0x000C	#FORM FEED
0x0D	0x000D	#CARRIAGE RETURN
0x0E	0x000E	#SHIFT OUT
0x0F	0x000F	#SHIFT IN
0x10	0x0010	#DATA LINK ESCAPE
0x11	0x0011	#DEVICE CONTROL ONE
0x12	0x0012	#DEVICE CONTROL TWO
0x13	0x0013	#DEVICE CONTROL THREE
0x14	0x0014	#DEVICE CONTROL FOUR
0x15	0x0015	#NEGATIVE ACKNOWLEDGE
0x16	0x0016	#SYNCHRONOUS IDLE
0x17	0x0017	#END OF TRANSMISSION BLOCK
0x18	0x0018	#CANCEL
0x19	0x0019	#END OF MEDIUM
0x1A	0x001A	#SUBSTITUTE
0x1B	0x001B	#ESCAPE
0x1C	0x001C	#FILE SEPARATOR
0x1D	0x001D	#GROUP SEPARATOR
0x1E	0x001E	#RECORD SEPARATOR
0x1F	0x001F	#UNIT SEPARATOR
0x20	0x0020	#SPACE
0x21	0x0021	#EXCLAMATION MARK
0x22	0x0022	#QUOTATION MARK
0x23	0x0023	#NUMBER SIGN
0x24	0x0024	#DOLLAR SIGN
0x25	0x0025	#PERCENT SIGN
0x26	0x0026	#AMPERSAND
0x27	0x0027	#APOSTROPHE
0x28	0x0028	#LEFT PARENTHESIS
0x29	0x0029	#RIGHT PARENTHESIS
0x2A	0x002A	#ASTERISK
0x2B	0x002B	#PLUS SIGN
0x2C	0x002C	#COMMA
0x2D	0x002D	#HYPHEN-MINUS
0x2E	0x002E	#FULL STOP
0x2F	0x002F	#SOLIDUS
0x30	0x0030	#DIGIT ZERO
0x31	0x0031	#DIGIT ONE
0x32	0x0032	#DIGIT TWO
0x33	0x0033	#DIGIT THREE
0x34	0x0034	#DIGIT FOUR
0x35	0x0035	#DIGIT FIVE
0x36	0x0036	#DIGIT SIX
0x37	0x0037	#DIGIT SEVEN
0x38	0x0038	#DIGIT EIGHT
0x39	0x0039	#DIGIT NINE
0x3A	0x003A	#COLON
0x3B	0x003B	#SEMICOLON
0x3C	0x003C	#LESS-THAN SIGN
0x3D	0x003D	#EQUALS SIGN
0x3E	0x003E	#GREATER-THAN SIGN
0x3F	0x003F	#QUESTION MARK
0x40	0x0040	#COMMERCIAL AT
0x41	0x0041	#LATIN CAPITAL LETTER A
0x42	0x0042	#LATIN CAPITAL LETTER B
0x43	0x0043	#LATIN CAPITAL LETTER C
0x44	0x0044	#LATIN CAPITAL LETTER D
0x45	0x0045	#LATIN CAPITAL LETTER E
0x46	0x0046	#LATIN CAPITAL LETTER F
0x47	0x0047	#LATIN CAPITAL LETTER G
0x48	0x0048	#LATIN CAPITAL LETTER H
0x49	0x0049	#LATIN CAPITAL LETTER I
0x4A	0x004A	#LATIN CAPITAL LETTER J
0x4B	0x004B	#LATIN CAPITAL LETTER K
0x4C	0x004C	#LATIN CAPITAL LETTER L
0x4D	0x004D	#LATIN CAPITAL LETTER M
0x4E	0x004E	#LATIN CAPITAL LETTER N
0x4F	0x004F	#LATIN CAPITAL LETTER O
0x50	0x0050	#LATIN CAPITAL LETTER P
0x51	0x0051	#LATIN CAPITAL LETTER Q
0x52	0x0052	#LATIN CAPITAL LETTER R
0x53	0x0053	#LATIN CAPITAL LETTER S
0x54	0x0054	#LATIN CAPITAL LETTER T
0x55	0x0055	#LATIN CAPITAL LETTER U
0x56	0x0056	#LATIN CAPITAL LETTER V
0x57	0x0057	#LATIN CAPITAL LETTER W
0x58	0x0058	#LATIN CAPITAL LETTER X
0x59	0x0059	#LATIN CAPITAL LETTER Y
0x5A	0x005A	#LATIN CAPITAL LETTER Z
0x5B	0x005B	#LEFT SQUARE BRACKET
0x5C	0x005C	#REVERSE SOLIDUS
0x5D	0x005D	#RIGHT SQUARE BRACKET
0x5E	0x005E	#CIRCUMFLEX ACCENT
0x5F	0x005F	#LOW LINE
0x60	0x0060	#GRAVE ACCENT
0x61	0x0061	#LATIN SMALL LETTER A
0x62	0x0062	#LATIN SMALL LETTER B
0x63	0x0063	#LATIN SMALL LETTER C
0x64	0x0064	#LATIN SMALL LETTER D
0x65	0x0065	#LATIN SMALL LETTER E
0x66	0x0066	#LATIN SMALL LETTER F
0x67	0x0067	#LATIN SMALL LETTER G
0x68	0x0068	#LATIN SMALL LETTER H
0x69	0x0069	#LATIN SMALL LETTER I
0x6A	0x006A	#LATIN SMALL LETTER J
0x6B	0x006B	#LATIN SMALL LETTER K
0x6C	0x006C	#LATIN SMALL LETTER L
0x6D	0x006D	#LATIN SMALL LETTER M
0x6E	0x006E	#LATIN SMALL LETTER N
0x6F	0x006F	#LATIN SMALL LETTER O
0x70	0x0070	#LATIN SMALL LETTER P
0x71	0x0071	#LATIN SMALL LETTER Q
0x72	0x0072	#LATIN SMALL LETTER R
0x73	0x0073	#LATIN SMALL LETTER S
0x74	0x0074	#LATIN SMALL LETTER T
0x75	0x0075	#LATIN SMALL LETTER U
0x76	0x0076	#LATIN SMALL LETTER V
0x77	0x0077	#LATIN SMALL LETTER W
0x78	0x0078	#LATIN SMALL LETTER X
0x79	0x0079	#LATIN SMALL LETTER Y
0x7A	0x007A	#LATIN SMALL LETTER Z
0x7B	0x007B	#LEFT CURLY BRACKET
0x7C	0x007C	#VERTICAL LINE
0x7D	0x007D	#RIGHT CURLY BRACKET
0x7E	0x007E	#TILDE
0x7F	0x007F	#DELETE
0x80	0x20AC	#EURO SIGN
0x81	      	#UNDEFINED
0x82	0x201A	#SINGLE LOW-9 QUOTATION MARK
0x83	0x0192	#LATIN SMALL LETTER F WITH HOOK
0x84	0x201E	#DOUBLE LOW-9 QUOTATION MARK
0x85	0x2026	#HORIZONTAL ELLIPSIS
0x86	0x2020	#DAGGER
0x87	0x2021	#DOUBLE DAGGER
0x88	      	#UNDEFINED
0x89	0x2030	#PER MILLE SIGN
0x8A	      	#UNDEFINED
0x8B	0x2039	#SINGLE LEFT-POINTING ANGLE QUOTATION MARK
0x8C	      	#UNDEFINED
0x8D	      	#UNDEFINED
0x8E	      	#UNDEFINED
0x8F	      	#UNDEFINED
0x90	      	#UNDEFINED
0x91	0x2018	#LEFT SINGLE QUOTATION MARK
0x92	0x2019	#RIGHT SINGLE QUOTATION MARK
0x93	0x201C	#LEFT DOUBLE QUOTATION MARK
0x94	0x201D	#RIGHT DOUBLE QUOTATION MARK
0x95	0x2022	#BULLET
0x96	0x2013	#EN DASH
0x97	0x2014	#EM DASH
0x98	      	#UNDEFINED
0x99	0x2122	#TRADE MARK SIGN
0x9A	      	#UNDEFINED
0x9B	0x203A	#SINGLE RIGHT-POINTING ANGLE QUOTATION MARK
0x9C	      	#UNDEFINED
0x9D	      	#UNDEFINED
0x9E	      	#UNDEFINED
0x9F	      	#UNDEFINED
0xA0	0x00A0	#NO-BREAK SPACE
0xA1	0x0385	#GREEK DIALYTIKA TONOS
0xA2	0x0386	#GREEK CAPITAL LETTER ALPHA WITH TONOS
0xA3	0x00A3	#POUND SIGN
0xA4	0x00A4	#CURRENCY SIGN
0xA5	0x00A5	#YEN SIGN
0xA6	0x00A6	#BROKEN BAR
0xA7	0x00A7	#SECTION SIGN
0xA8	0x00A8	#DIAERESIS
0xA9	0x00A9	#COPYRIGHT SIGN
0xAA	      	#UNDEFINED
0xAB	0x00AB	#LEFT-POINTING DOUBLE ANGLE QUOTATION MARK
0xAC	0x00AC	#NOT SIGN
0xAD	0x00AD	#SOFT HYPHEN
0xAE	0x00AE	#REGISTERED SIGN
0xAF	0x2015	#HORIZONTAL BAR
0xB0	0x00B0	#DEGREE SIGN
0xB1	0x00B1	#PLUS-MINUS SIGN
0xB2	0x00B2	#SUPERSCRIPT TWO
0xB3	0x00B3	#SUPERSCRIPT THREE
0xB4	0x0384	#GREEK TONOS
0xB5	0x00B5	#MICRO SIGN
0xB6	0x00B6	#PILCROW SIGN
0xB7	0x00B7	#MIDDLE DOT
0xB8	0x0388	#GREEK CAPITAL LETTER EPSILON WITH TONOS
0xB9	0x0389	#GREEK CAPITAL LETTER ETA WITH TONOS
0xBA	0x038A	#GREEK CAPITAL LETTER IOTA WITH TONOS
0xBB	0x00BB	#RIGHT-POINTING DOUBLE ANGLE QUOTATION MARK
0xBC	0x038C	#GREEK CAPITAL LETTER OMICRON WITH TONOS
0xBD	0x00BD	#VULGAR FRACTION ONE HALF
0xBE	0x038E	#GREEK CAPITAL LETTER UPSILON WITH TONOS
0xBF	0x038F	#GREEK CAPITAL LETTER OMEGA WITH TONOS
0xC0	0x0390	#GREEK SMALL LETTER IOTA WITH DIALYTIKA AND TONOS
0xC1	0x0391	#GREEK CAPITAL LETTER ALPHA
0xC2	0x0392	#GREEK CAPITAL LETTER BETA
0xC3	0x0393	#GREEK CAPITAL LETTER GAMMA
0xC4	0x0394	#GREEK CAPITAL LETTER DELTA
0xC5	0x0395	#GREEK CAPITAL LETTER EPSILON
0xC6	0x0396	#GREEK CAPITAL LETTER ZETA
0xC7	0x0397	#GREEK CAPITAL LETTER ETA
0xC8	0x0398	#GREEK CAPITAL LETTER THETA
0xC9	0x0399	#GREEK CAPITAL LETTER IOTA
0xCA	0x039A	#GREEK CAPITAL LETTER KAPPA
0xCB	0x039B	#GREEK CAPITAL LETTER LAMDA
0xCC	0x039C	#GREEK CAPITAL LETTER MU
0xCD	0x039D	#GREEK CAPITAL LETTER NU
0xCE	0x039E	#GREEK CAPITAL LETTER XI
0xCF	0x039F	#GREEK CAPITAL LETTER OMICRON
0xD0	0x03A0	#GREEK CAPITAL LETTER PI
0xD1	0x03A1	#GREEK CAPITAL LETTER RHO
0xD2	      	#UNDEFINED
0xD3	0x03A3	#GREEK CAPITAL LETTER SIGMA
0xD4	0x03A4	#GREEK CAPITAL LETTER TAU
0xD5	0x03A5	#GREEK CAPITAL LETTER UPSILON
0xD6	0x03A6	#GREEK CAPITAL LETTER PHI
0xD7	0x03A7	#GREEK CAPITAL LETTER CHI
0xD8	0x03A8	#GREEK CAPITAL LETTER PSI
0xD9	0x03A9	#GREEK CAPITAL LETTER OMEGA
0xDA	0x03AA	#GREEK CAPITAL LETTER IOTA WITH DIALYTIKA
0xDB	0x03AB	#GREEK CAPITAL LETTER UPSILON WITH DIALYTIKA
0xDC	0x03AC	#GREEK SMALL LETTER ALPHA WITH TONOS
0xDD	0x03AD	#GREEK SMALL LETTER EPSILON WITH TONOS
0xDE	0x03AE	#GREEK SMALL LETTER ETA WITH TONOS
0xDF	0x03AF	#GREEK SMALL LETTER IOTA WITH TONOS
0xE0	0x03B0	#GREEK SMALL LETTER UPSILON WITH DIALYTIKA AND TONOS
0xE1	0x03B1	#GREEK SMALL LETTER ALPHA
0xE2	0x03B2	#GREEK SMALL LETTER BETA
0xE3	0x03B3	#GREEK SMALL LETTER GAMMA
0xE4	0x03B4	#GREEK SMALL LETTER DELTA
0xE5	0x03B5	#GREEK SMALL LETTER EPSILON
0xE6	0x03B6	#GREEK SMALL LETTER ZETA
0xE7	0x03B7	#GREEK SMALL LETTER ETA
0xE8	0x03B8	#GREEK SMALL LETTER THETA
0xE9	0x03B9	#GREEK SMALL LETTER IOTA
0xEA	0x03BA	#GREEK SMALL LETTER KAPPA
0xEB	0x03BB	#GREEK SMALL LETTER LAMDA
0xEC	0x03BC	#GREEK SMALL LETTER MU
0xED	0x03BD	#GREEK SMALL LETTER NU
0xEE	0x03BE	#GREEK SMALL LETTER XI
0xEF	0x03BF	#GREEK SMALL LETTER OMICRON
0xF0	0x03C0	#GREEK SMALL LETTER PI
0xF1	0x03C1	#GREEK SMALL LETTER RHO
0xF2	0x03C2	#GREEK SMALL LETTER FINAL SIGMA
0xF3	0x03C3	#GREEK SMALL LETTER SIGMA
0xF4	0x03C4	#GREEK SMALL LETTER TAU
0xF5	0x03C5	#GREEK SMALL LETTER UPSILON
0xF6	0x03C6	#GREEK SMALL LETTER PHI
0xF7	0x03C7	#GREEK SMALL LETTER CHI
0xF8	0x03C8	#GREEK SMALL LETTER PSI
0xF9	0x03C9	#GREEK SMALL LETTER OMEGA
0xFA	0x03CA	#GREEK SMALL LETTER IOTA WITH DIALYTIKA
0xFB	0x03CB	#GREEK SMALL LETTER UPSILON WITH DIALYTIKA
0xFC	0x03CC	#GREEK SMALL LETTER OMICRON WITH TONOS
0xFD	0x03CD	#GREEK SMALL LETTER UPSILON WITH TONOS
0xFE	0x03CE	#GREEK SMALL LETTER OMEGA WITH TONOS
0xFF	      	#UNDEFINED
"#

/-- src/generated/single_byte/windows-cp1253_tables.rs.inc:1-68 -/
noncomputable def windows_1253_source : List Text := lines! r#"// This file is auto-generated.  Please see `encoding_tables/single_byte/`
// from the root directory for the files that generate this.

use {DecodeResult, EncodeResult};

pub fn decode_to_str<'a>(
    input: &[u8],
    out_buffer: &'a mut [u8],
) -> DecodeResult<'a> {
    super::ascii_ext_decode_to_str(&DECODE_TABLE, input, out_buffer)
}

pub fn encode_from_str<'a>(
    input: &str,
    out_buffer: &'a mut [u8],
) -> EncodeResult<'a> {
    super::ascii_ext_encode_from_str(&ENCODE_TABLE, input, out_buffer)
}

const DECODE_TABLE: [char; 128] = [
    '\u{20AC}','�','\u{201A}','\u{0192}','\u{201E}','\u{2026}','\u{2020}','\u{2021}',
    '�','\u{2030}','�','\u{2039}','�','�','�','�',
    '�','\u{2018}','\u{2019}','\u{201C}','\u{201D}','\u{2022}','\u{2013}','\u{2014}',
    '�','\u{2122}','�','\u{203A}','�','�','�','�',
    '\u{00A0}','\u{0385}','\u{0386}','\u{00A3}','\u{00A4}','\u{00A5}','\u{00A6}','\u{00A7}',
    '\u{00A8}','\u{00A9}','�','\u{00AB}','\u{00AC}','\u{00AD}','\u{00AE}','\u{2015}',
    '\u{00B0}','\u{00B1}','\u{00B2}','\u{00B3}','\u{0384}','\u{00B5}','\u{00B6}','\u{00B7}',
    '\u{0388}','\u{0389}','\u{038A}','\u{00BB}','\u{038C}','\u{00BD}','\u{038E}','\u{038F}',
    '\u{0390}','\u{0391}','\u{0392}','\u{0393}','\u{0394}','\u{0395}','\u{0396}','\u{0397}',
    '\u{0398}','\u{0399}','\u{039A}','\u{039B}','\u{039C}','\u{039D}','\u{039E}','\u{039F}',
    '\u{03A0}','\u{03A1}','�','\u{03A3}','\u{03A4}','\u{03A5}','\u{03A6}','\u{03A7}',
    '\u{03A8}','\u{03A9}','\u{03AA}','\u{03AB}','\u{03AC}','\u{03AD}','\u{03AE}','\u{03AF}',
    '\u{03B0}','\u{03B1}','\u{03B2}','\u{03B3}','\u{03B4}','\u{03B5}','\u{03B6}','\u{03B7}',
    '\u{03B8}','\u{03B9}','\u{03BA}','\u{03BB}','\u{03BC}','\u{03BD}','\u{03BE}','\u{03BF}',
    '\u{03C0}','\u{03C1}','\u{03C2}','\u{03C3}','\u{03C4}','\u{03C5}','\u{03C6}','\u{03C7}',
    '\u{03C8}','\u{03C9}','\u{03CA}','\u{03CB}','\u{03CC}','\u{03CD}','\u{03CE}','�',
];

const ENCODE_TABLE: [(char, u8); 111] = [
    ('\u{00A0}', 0xA0), ('\u{00A3}', 0xA3), ('\u{00A4}', 0xA4), ('\u{00A5}', 0xA5), 
    ('\u{00A6}', 0xA6), ('\u{00A7}', 0xA7), ('\u{00A8}', 0xA8), ('\u{00A9}', 0xA9), 
    ('\u{00AB}', 0xAB), ('\u{00AC}', 0xAC), ('\u{00AD}', 0xAD), ('\u{00AE}', 0xAE), 
    ('\u{00B0}', 0xB0), ('\u{00B1}', 0xB1), ('\u{00B2}', 0xB2), ('\u{00B3}', 0xB3), 
    ('\u{00B5}', 0xB5), ('\u{00B6}', 0xB6), ('\u{00B7}', 0xB7), ('\u{00BB}', 0xBB), 
    ('\u{00BD}', 0xBD), ('\u{0192}', 0x83), ('\u{0384}', 0xB4), ('\u{0385}', 0xA1), 
    ('\u{0386}', 0xA2), ('\u{0388}', 0xB8), ('\u{0389}', 0xB9), ('\u{038A}', 0xBA), 
    ('\u{038C}', 0xBC), ('\u{038E}', 0xBE), ('\u{038F}', 0xBF), ('\u{0390}', 0xC0), 
    ('\u{0391}', 0xC1), ('\u{0392}', 0xC2), ('\u{0393}', 0xC3), ('\u{0394}', 0xC4), 
    ('\u{0395}', 0xC5), ('\u{0396}', 0xC6), ('\u{0397}', 0xC7), ('\u{0398}', 0xC8), 
    ('\u{0399}', 0xC9), ('\u{039A}', 0xCA), ('\u{039B}', 0xCB), ('\u{039C}', 0xCC), 
    ('\u{039D}', 0xCD), ('\u{039E}', 0xCE), ('\u{039F}', 0xCF), ('\u{03A0}', 0xD0), 
    ('\u{03A1}', 0xD1), ('\u{03A3}', 0xD3), ('\u{03A4}', 0xD4), ('\u{03A5}', 0xD5), 
    ('\u{03A6}', 0xD6), ('\u{03A7}', 0xD7), ('\u{03A8}', 0xD8), ('\u{03A9}', 0xD9), 
    ('\u{03AA}', 0xDA), ('\u{03AB}', 0xDB), ('\u{03AC}', 0xDC), ('\u{03AD}', 0xDD), 
    ('\u{03AE}', 0xDE), ('\u{03AF}', 0xDF), ('\u{03B0}', 0xE0), ('\u{03B1}', 0xE1), 
    ('\u{03B2}', 0xE2), ('\u{03B3}', 0xE3), ('\u{03B4}', 0xE4), ('\u{03B5}', 0xE5), 
    ('\u{03B6}', 0xE6), ('\u{03B7}', 0xE7), ('\u{03B8}', 0xE8), ('\u{03B9}', 0xE9), 
    ('\u{03BA}', 0xEA), ('\u{03BB}', 0xEB), ('\u{03BC}', 0xEC), ('\u{03BD}', 0xED), 
    ('\u{03BE}', 0xEE), ('\u{03BF}', 0xEF), ('\u{03C0}', 0xF0), ('\u{03C1}', 0xF1), 
    ('\u{03C2}', 0xF2), ('\u{03C3}', 0xF3), ('\u{03C4}', 0xF4), ('\u{03C5}', 0xF5), 
    ('\u{03C6}', 0xF6), ('\u{03C7}', 0xF7), ('\u{03C8}', 0xF8), ('\u{03C9}', 0xF9), 
    ('\u{03CA}', 0xFA), ('\u{03CB}', 0xFB), ('\u{03CC}', 0xFC), ('\u{03CD}', 0xFD), 
    ('\u{03CE}', 0xFE), ('\u{2013}', 0x96), ('\u{2014}', 0x97), ('\u{2015}', 0xAF), 
    ('\u{2018}', 0x91), ('\u{2019}', 0x92), ('\u{201A}', 0x82), ('\u{201C}', 0x93), 
    ('\u{201D}', 0x94), ('\u{201E}', 0x84), ('\u{2020}', 0x86), ('\u{2021}', 0x87), 
    ('\u{2022}', 0x95), ('\u{2026}', 0x85), ('\u{2030}', 0x89), ('\u{2039}', 0x8B), 
    ('\u{203A}', 0x9B), ('\u{20AC}', 0x80), ('\u{2122}', 0x99), 
];
"#

/-- encoding_tables/single_byte/ascii_ext/windows-cp1254.txt:1-274 -/
noncomputable def windows_1254_mapping : List Text := lines! r#"#
#    Name:     cp1254 to Unicode table
#    Unicode version: 2.0
#    Table version: 2.01
#    Table format:  Format A
#    Date:          04/15/98
#
#    Contact:       Shawn.Steele@microsoft.com
#
#    General notes: none
#
#    Format: Three tab-separated columns
#        Column #1 is the cp1254 code (in hex)
#        Column #2 is the Unicode (in hex as 0xXXXX)
#        Column #3 is the Unicode name (follows a comment sign, '#')
#
#    The entries are in cp1254 order
#
0x00	0x0000	#NULL
0x01	0x0001	#START OF HEADING
0x02	0x0002	#START OF TEXT
0x03	0x0003	#END OF TEXT
0x04	0x0004	#END OF TRANSMISSION
0x05	0x0005	#ENQUIRY
0x06	0x0006	#ACKNOWLEDGE
0x07	0x0007	#BELL
0x08	0x0008	#BACKSPACE
0x09	0x0009	#HORIZONTAL TABULATION
0x0A	0x000A	#LINE FEED
0x0B	0x000B	#VERTICAL TABULATION
0x0C	0x000C	#FORM FEED
0x0D	0x000D	#CARRIAGE RETURN
0x0E	0x000E	#SHIFT OUT
0x0F	0x000F	#SHIFT IN
0x10	0x0010	#DATA LINK ESCAPE
0x11	0x0011	#DEVICE CONTROL ONE
0x12	0x0012	#DEVICE CONTROL TWO
0x13	0x0013	#DEVICE CONTROL THREE
0x14	0x0014	#DEVICE CONTROL FOUR
0x15	0x0015	#NEGATIVE ACKNOWLEDGE
0x16	0x0016	#SYNCHRONOUS IDLE
0x17	0x0017	#END OF TRANSMISSION BLOCK
0x18	0x0018	#CANCEL
0x19	0x0019	#END OF MEDIUM
0x1A	0x001A	#SUBSTITUTE
0x1B	0x001B	#ESCAPE
0x1C	0x001C	#FILE SEPARATOR
0x1D	0x001D	#GROUP SEPARATOR
0x1E	0x001E	#RECORD SEPARATOR
0x1F	0x001F	#UNIT SEPARATOR
0x20	0x0020	#SPACE
0x21	0x0021	#EXCLAMATION MARK
0x22	0x0022	#QUOTATION MARK
0x23	0x0023	#NUMBER SIGN
0x24	0x0024	#DOLLAR SIGN
0x25	0x0025	#PERCENT SIGN
0x26	0x0026	#AMPERSAND
0x27	0x0027	#APOSTROPHE
0x28	0x0028	#LEFT PARENTHESIS
0x29	0x0029	#RIGHT PARENTHESIS
0x2A	0x002A	#ASTERISK
0x2B	0x002B	#PLUS SIGN
0x2C	0x002C	#COMMA
0x2D	0x002D	#HYPHEN-MINUS
0x2E	0x002E	#FULL STOP
0x2F	0x002F	#SOLIDUS
0x30	0x0030	#DIGIT ZERO
0x31	0x0031	#DIGIT ONE
0x32	0x0032	#DIGIT TWO
0x33	0x0033	#DIGIT THREE
0x34	0x0034	#DIGIT FOUR
0x35	0x0035	#DIGIT FIVE
0x36	0x0036	#DIGIT SIX
0x37	0x0037	#DIGIT SEVEN
0x38	0x0038	#DIGIT EIGHT
0x39	0x0039	#DIGIT NINE
0x3A	0x003A	#COLON
0x3B	0x003B	#SEMICOLON
0x3C	0x003C	#LESS-THAN SIGN
0x3D	0x003D	#EQUALS SIGN
0x3E	0x003E	#GREATER-THAN SIGN
0x3F	0x003F	#QUESTION MARK
0x40	0x0040	#COMMERCIAL AT
0x41	0x0041	#LATIN CAPITAL LETTER A
0x42	0x0042	#LATIN CAPITAL LETTER B
0x43	0x0043	#LATIN CAPITAL LETTER C
0x44	0x0044	#LATIN CAPITAL LETTER D
0x45	0x0045	#LATIN CAPITAL LETTER E
0x46	0x0046	#LATIN CAPITAL LETTER F
0x47	0x0047	#LATIN CAPITAL LETTER G
0x48	0x0048	#LATIN CAPITAL LETTER H
0x49	0x0049	#LATIN CAPITAL LETTER I
0x4A	0x004A	#LATIN CAPITAL LETTER J
0x4B	0x004B	#LATIN CAPITAL LETTER K
0x4C	0x004C	#LATIN CAPITAL LETTER L
0x4D	0x004D	#LATIN CAPITAL LETTER M
0x4E	0x004E	#LATIN CAPITAL LETTER N
0x4F	0x004F	#LATIN CAPITAL LETTER O
0x50	0x0050	#LATIN CAPITAL LETTER P
0x51	0x0051	#LATIN CAPITAL LETTER Q
0x52	0x0052	#LATIN CAPITAL LETTER R
0x53	0x0053	#LATIN CAPITAL LETTER S
0x54	0x0054	#LATIN CAPITAL LETTER T
0x55	0x0055	#LATIN CAPITAL LETTER U
0x56	0x0056	#LATIN CAPITAL LETTER V
0x57	0x0057	#LATIN CAPITAL LETTER W
0x58	0x0058	#LATIN CAPITAL LETTER X
0x59	0x0059	#LATIN CAPITAL LETTER Y
0x5A	0x005A	#LATIN CAPITAL LETTER Z
0x5B	0x005B	#LEFT SQUARE BRACKET
0x5C	0x005C	#REVERSE SOLIDUS
0x5D	0x005D	#RIGHT SQUARE BRACKET
0x5E	0x005E	#CIRCUMFLEX ACCENT
0x5F	0x005F	#LOW LINE
0x60	0x0060	#GRAVE ACCENT
0x61	0x0061	#LATIN SMALL LETTER A
0x62	0x0062	#LATIN SMALL LETTER B
0x63	0x0063	#LATIN SMALL LETTER C
0x64	0x0064	#LATIN SMALL LETTER D
0x65	0x0065	#LATIN SMALL LETTER E
0x66	0x0066	#LATIN SMALL LETTER F
0x67	0x0067	#LATIN SMALL LETTER G
0x68	0x0068	#LATIN SMALL LETTER H
0x69	0x0069	#LATIN SMALL LETTER I
0x6A	0x006A	#LATIN SMALL LETTER J
0x6B	0x006B	#LATIN SMALL LETTER K
0x6C	0x006C	#LATIN SMALL LETTER L
0x6D	0x006D	#LATIN SMALL LETTER M
0x6E	0x006E	#LATIN SMALL LETTER N
0x6F	0x006F	#LATIN SMALL LETTER O
0x70	0x0070	#LATIN SMALL LETTER P
0x71	0x0071	#LATIN SMALL LETTER Q
0x72	0x0072	#LATIN SMALL LETTER R
0x73	0x0073	#LATIN SMALL LETTER S
0x74	0x0074	#LATIN SMALL LETTER T
0x75	0x0075	#LATIN SMALL LETTER U
0x76	0x0076	#LATIN SMALL LETTER V
0x77	0x0077	#LATIN SMALL LETTER W
0x78	0x0078	#LATIN SMALL LETTER X
0x79	0x0079	#LATIN SMALL LETTER Y
0x7A	0x007A	#LATIN SMALL LETTER Z
0x7B	0x007B	#LEFT CURLY BRACKET
0x7C	0x007C	#VERTICAL LINE
0x7D	0x007D	#RIGHT CURLY BRACKET
0x7E	0x007E	#TILDE
0x7F	0x007F	#DELETE
0x80	0x20AC	#EURO SIGN
0x81	      	#UNDEFINED
0x82	0x201A	#SINGLE LOW-9 QUOTATION MARK
0x83	0x0192	#LATIN SMALL LETTER F WITH HOOK
0x84	0x201E	#DOUBLE LOW-9 QUOTATION MARK
0x85	0x2026	#HORIZONTAL ELLIPSIS
0x86	0x2020	#DAGGER
0x87	0x2021	#DOUBLE DAGGER
0x88	0x02C6	#MODIFIER LETTER CIRCUMFLEX ACCENT
0x89	0x2030	#PER MILLE SIGN
0x8A	0x0160	#LATIN CAPITAL LETTER S WITH CARON
0x8B	0x2039	#SINGLE LEFT-POINTING ANGLE QUOTATION MARK
0x8C	0x0152	#LATIN CAPITAL LIGATURE OE
0x8D	      	#UNDEFINED
0x8E	      	#UNDEFINED
0x8F	      	#UNDEFINED
0x90	      	#UNDEFINED
0x91	0x2018	#LEFT SINGLE QUOTATION MARK
0x92	0x2019	#RIGHT SINGLE QUOTATION MARK
0x93	0x201C	#LEFT DOUBLE QUOTATION MARK
0x94	0x201D	#RIGHT DOUBLE QUOTATION MARK
0x95	0x2022	#BULLET
0x96	0x2013	#EN DASH
0x97	0x2014	#EM DASH
0x98	0x02DC	#SMALL TILDE
0x99	0x2122	#TRADE MARK SIGN
0x9A	0x0161	#LATIN SMALL LETTER S WITH CARON
0x9B	0x203A	#SINGLE RIGHT-POINTING ANGLE QUOTATION MARK
0x9C	0x0153	#LATIN SMALL LIGATURE OE
0x9D	      	#UNDEFINED
0x9E	      	#UNDEFINED
0x9F	0x0178	#LATIN CAPITAL LETTER Y WITH DIAERESIS
0xA0	0x00A0	#NO-BREAK SPACE
0xA1	0x00A1	#INVERTED EXCLAMATION MARK
0xA2	0x00A2	#CENT SIGN
0xA3	0x00A3	#POUND SIGN
0xA4	0x00A4	#CURRENCY SIGN
0xA5	0x00A5	#YEN SIGN
0xA6	0x00A6	#BROKEN BAR
0xA7	0x00A7	#SECTION SIGN
0xA8	0x00A8	#DIAERESIS
0xA9	0x00A9	#COPYRIGHT SIGN
0xAA	0x00AA	#FEMININE ORDINAL INDICATOR
0xAB	0x00AB	#LEFT-POINTING DOUBLE ANGLE QUOTATION MARK
0xAC	0x00AC	#NOT SIGN
0xAD	0x00AD	#SOFT HYPHEN
0xAE	0x00AE	#REGISTERED SIGN
0xAF	0x00AF	#MACRON
0xB0	0x00B0	#DEGREE SIGN
0xB1	0x00B1	#PLUS-MINUS SIGN
0xB2	0x00B2	#SUPERSCRIPT TWO
0xB3	0x00B3	#SUPERSCRIPT THREE
0xB4	0x00B4	#ACUTE ACCENT
0xB5	0x00B5	#MICRO SIGN
0xB6	0x00B6	#PILCROW SIGN
0xB7	0x00B7	#MIDDLE DOT
0xB8	0x00B8	#CEDILLA
0xB9	0x00B9	#SUPERSCRIPT ONE
0xBA	0x00BA	#MASCULINE ORDINAL INDICATOR
0xBB	0x00BB	#RIGHT-POINTING DOUBLE ANGLE QUOTATION MARK
0xBC	0x00BC	#VULGAR FRACTION ONE QUARTER
0xBD	0x00BD	#VULGAR FRACTION ONE HALF
0xBE	0x00BE	#VULGAR FRACTION THREE QUARTERS
0xBF	0x00BF	#INVERTED QUESTION MARK
0xC0	0x00C0	#LATIN CAPITAL LETTER A WITH GRAVE
0xC1	0x00C1	#LATIN CAPITAL LETTER A WITH ACUTE
0xC2	0x00C2	#LATIN CAPITAL LETTER A WITH CIRCUMFLEX
0xC3	0x00C3	#LATIN CAPITAL LETTER A WITH TILDE
0xC4	0x00C4	#LATIN CAPITAL LETTER A WITH DIAERESIS
0xC5	0x00C5	#LATIN CAPITAL LETTER A WITH RING ABOVE
0xC6	0x00C6	#LATIN CAPITAL LETTER AE
0xC7	0x00C7	#LATIN CAPITAL LETTER C WITH CEDILLA
0xC8	0x00C8	#LATIN CAPITAL LETTER E WITH GRAVE
0xC9	0x00C9	#LATIN CAPITAL LETTER E WITH ACUTE
0xCA	0x00CA	#LATIN CAPITAL LETTER E WITH CIRCUMFLEX
0xCB	0x00CB	#LATIN CAPITAL LETTER E WITH DIAERESIS
0xCC	0x00CC	#LATIN CAPITAL LETTER I WITH GRAVE
0xCD	0x00CD	#LATIN CAPITAL LETTER I WITH ACUTE
0xCE	0x00CE	#LATIN CAPITAL LETTER I WITH CIRCUMFLEX
0xCF	0x00CF	#LATIN CAPITAL LETTER I WITH DIAERESIS
0xD0	0x011E	#LATIN CAPITAL LETTER G WITH BREVE
0xD1	0x00D1	#LATIN CAPITAL LETTER N WITH TILDE
0xD2	0x00D2	#LATIN CAPITAL LETTER O WITH GRAVE
0xD3	0x00D3	#LATIN CAPITAL LETTER O WITH ACUTE
0xD4	0x00D4	#LATIN CAPITAL LETTER O WITH CIRCUMFLEX
0xD5	0x00D5	#LATIN CAPITAL LETTER O WITH TILDE
0xD6	0x00D6	#LATIN CAPITAL LETTER O WITH DIAERESIS
0xD7	0x00D7	#MULTIPLICATION SIGN
0xD8	0x00D8	#LATIN CAPITAL LETTER O WITH STROKE
0xD9	0x00D9	#LATIN CAPITAL LETTER U WITH GRAVE
0xDA	0x00DA	#LATIN CAPITAL LETTER U WITH ACUTE
0xDB	0x00DB	#LATIN CAPITAL LETTER U WITH CIRCUMFLEX
0xDC	0x00DC	#LATIN CAPITAL LETTER U WITH DIAERESIS
0xDD	0x0130	#LATIN CAPITAL LETTER I WITH DOT ABOVE
0xDE	0x015E	#LATIN CAPITAL LETTER S WITH CEDILLA
0xDF	0x00DF	#LATIN SMALL LETTER SHARP S
0xE0	0x00E0	#LATIN SMALL LETTER A WITH GRAVE
0xE1	0x00E1	#LATIN SMALL LETTER A WITH ACUTE
0xE2	0x00E2	#LATIN SMALL LETTER A WITH CIRCUMFLEX
0xE3	0x00E3	#LATIN SMALL LETTER A WITH TILDE
0xE4	0x00E4	#LATIN SMALL LETTER A WITH DIAERESIS
0xE5	0x00E5	#LATIN SMALL LETTER A WITH RING ABOVE
0xE6	0x00E6	#LATIN SMALL LETTER AE
0xE7	0x00E7	#LATIN SMALL LETTER C WITH CEDILLA
0xE8	0x00E8	#LATIN SMALL LETTER E WITH GRAVE
0xE9	0x00E9	#LATIN SMALL LETTER E WITH ACUTE
0xEA	0x00EA	#LATIN SMALL LETTER E WITH CIRCUMFLEX
0xEB	0x00EB	#LATIN SMALL LETTER E WITH DIAERESIS
0xEC	0x00EC	#LATIN SMALL LETTER I WITH GRAVE
0xED	0x00ED	#LATIN SMALL LETTER I WITH ACUTE
0xEE	0x00EE	#LATIN SMALL LETTER I WITH CIRCUMFLEX
0xEF	0x00EF	#LATIN SMALL LETTER I WITH DIAERESIS
0xF0	0x011F	#LATIN SMALL LETTER G WITH BREVE
0xF1	0x00F1	#LATIN SMALL LETTER N WITH TILDE
0xF2	0x00F2	#LATIN SMALL LETTER O WITH GRAVE
0xF3	0x00F3	#LATIN SMALL LETTER O WITH ACUTE
0xF4	0x00F4	#LATIN SMALL LETTER O WITH CIRCUMFLEX
0xF5	0x00F5	#LATIN SMALL LETTER O WITH TILDE
0xF6	0x00F6	#LATIN SMALL LETTER O WITH DIAERESIS
0xF7	0x00F7	#DIVISION SIGN
0xF8	0x00F8	#LATIN SMALL LETTER O WITH STROKE
0xF9	0x00F9	#LATIN SMALL LETTER U WITH GRAVE
0xFA	0x00FA	#LATIN SMALL LETTER U WITH ACUTE
0xFB	0x00FB	#LATIN SMALL LETTER U WITH CIRCUMFLEX
0xFC	0x00FC	#LATIN SMALL LETTER U WITH DIAERESIS
0xFD	0x0131	#LATIN SMALL LETTER DOTLESS I
0xFE	0x015F	#LATIN SMALL LETTER S WITH CEDILLA
0xFF	0x00FF	#LATIN SMALL LETTER Y WITH DIAERESIS
"#

/-- src/generated/single_byte/windows-cp1254_tables.rs.inc:1-71 -/
noncomputable def windows_1254_source : List Text := lines! r#"// This file is auto-generated.  Please see `encoding_tables/single_byte/`
// from the root directory for the files that generate this.

use {DecodeResult, EncodeResult};

pub fn decode_to_str<'a>(
    input: &[u8],
    out_buffer: &'a mut [u8],
) -> DecodeResult<'a> {
    super::ascii_ext_decode_to_str(&DECODE_TABLE, input, out_buffer)
}

pub fn encode_from_str<'a>(
    input: &str,
    out_buffer: &'a mut [u8],
) -> EncodeResult<'a> {
    super::ascii_ext_encode_from_str(&ENCODE_TABLE, input, out_buffer)
}

const DECODE_TABLE: [char; 128] = [
    '\u{20AC}','�','\u{201A}','\u{0192}','\u{201E}','\u{2026}','\u{2020}','\u{2021}',
    '\u{02C6}','\u{2030}','\u{0160}','\u{2039}','\u{0152}','�','�','�',
    '�','\u{2018}','\u{2019}','\u{201C}','\u{201D}','\u{2022}','\u{2013}','\u{2014}',
    '\u{02DC}','\u{2122}','\u{0161}','\u{203A}','\u{0153}','�','�','\u{0178}',
    '\u{00A0}','\u{00A1}','\u{00A2}','\u{00A3}','\u{00A4}','\u{00A5}','\u{00A6}','\u{00A7}',
    '\u{00A8}','\u{00A9}','\u{00AA}','\u{00AB}','\u{00AC}','\u{00AD}','\u{00AE}','\u{00AF}',
    '\u{00B0}','\u{00B1}','\u{00B2}','\u{00B3}','\u{00B4}','\u{00B5}','\u{00B6}','\u{00B7}',
    '\u{00B8}','\u{00B9}','\u{00BA}','\u{00BB}','\u{00BC}','\u{00BD}','\u{00BE}','\u{00BF}',
    '\u{00C0}','\u{00C1}','\u{00C2}','\u{00C3}','\u{00C4}','\u{00C5}','\u{00C6}','\u{00C7}',
    '\u{00C8}','\u{00C9}','\u{00CA}','\u{00CB}','\u{00CC}','\u{00CD}','\u{00CE}','\u{00CF}',
    '\u{011E}','\u{00D1}','\u{00D2}','\u{00D3}','\u{00D4}','\u{00D5}','\u{00D6}','\u{00D7}',
    '\u{00D8}','\u{00D9}','\u{00DA}','\u{00DB}','\u{00DC}','\u{0130}','\u{015E}','\u{00DF}',
    '\u{00E0}','\u{00E1}','\u{00E2}','\u{00E3}','\u{00E4}','\u{00E5}','\u{00E6}','\u{00E7}',
    '\u{00E8}','\u{00E9}','\u{00EA}','\u{00EB}','\u{00EC}','\u{00ED}','\u{00EE}','\u{00EF}',
    '\u{011F}','\u{00F1}','\u{00F2}','\u{00F3}','\u{00F4}','\u{00F5}','\u{00F6}','\u{00F7}',
    '\u{00F8}','\u{00F9}','\u{00FA}','\u{00FB}','\u{00FC}','\u{0131}','\u{015F}','\u{00FF}',
];

const ENCODE_TABLE: [(char, u8); 121] = [
    ('\u{00A0}', 0xA0), ('\u{00A1}', 0xA1), ('\u{00A2}', 0xA2), ('\u{00A3}', 0xA3), 
    ('\u{00A4}', 0xA4), ('\u{00A5}', 0xA5), ('\u{00A6}', 0xA6), ('\u{00A7}', 0xA7), 
    ('\u{00A8}', 0xA8), ('\u{00A9}', 0xA9), ('\u{00AA}', 0xAA), ('\u{00AB}', 0xAB), 
    ('\u{00AC}', 0xAC), ('\u{00AD}', 0xAD), ('\u{00AE}', 0xAE), ('\u{00AF}', 0xAF), 
    ('\u{00B0}', 0xB0), ('\u{00B1}', 0xB1), ('\u{00B2}', 0xB2), ('\u{00B3}', 0xB3), 
    ('\u{00B4}', 0xB4), ('\u{00B5}', 0xB5), ('\u{00B6}', 0xB6), ('\u{00B7}', 0xB7), 
    ('\u{00B8}', 0xB8), ('\u{00B9}', 0xB9), ('\u{00BA}', 0xBA), ('\u{00BB}', 0xBB), 
    ('\u{00BC}', 0xBC), ('\u{00BD}', 0xBD), ('\u{00BE}', 0xBE), ('\u{00BF}', 0xBF), 
    ('\u{00C0}', 0xC0), ('\u{00C1}', 0xC1), ('\u{00C2}', 0xC2), ('\u{00C3}', 0xC3), 
    ('\u{00C4}', 0xC4), ('\u{00C5}', 0xC5), ('\u{00C6}', 0xC6), ('\u{00C7}', 0xC7), 
    ('\u{00C8}', 0xC8), ('\u{00C9}', 0xC9), ('\u{00CA}', 0xCA), ('\u{00CB}', 0xCB), 
    ('\u{00CC}', 0xCC), ('\u{00CD}', 0xCD), ('\u{00CE}', 0xCE), ('\u{00CF}', 0xCF), 
    ('\u{00D1}', 0xD1), ('\u{00D2}', 0xD2), ('\u{00D3}', 0xD3), ('\u{00D4}', 0xD4), 
    ('\u{00D5}', 0xD5), ('\u{00D6}', 0xD6), ('\u{00D7}', 0xD7), ('\u{00D8}', 0xD8), 
    ('\u{00D9}', 0xD9), ('\u{00DA}', 0xDA), ('\u{00DB}', 0xDB), ('\u{00DC}', 0xDC), 
    ('\u{00DF}', 0xDF), ('\u{00E0}', 0xE0), ('\u{00E1}', 0xE1), ('\u{00E2}', 0xE2), 
    ('\u{00E3}', 0xE3), ('\u{00E4}', 0xE4), ('\u{00E5}', 0xE5), ('\u{00E6}', 0xE6), 
    ('\u{00E7}', 0xE7), ('\u{00E8}', 0xE8), ('\u{00E9}', 0xE9), ('\u{00EA}', 0xEA), 
    ('\u{00EB}', 0xEB), ('\u{00EC}', 0xEC), ('\u{00ED}', 0xED), ('\u{00EE}', 0xEE), 
    ('\u{00EF}', 0xEF), ('\u{00F1}', 0xF1), ('\u{00F2}', 0xF2), ('\u{00F3}', 0xF3), 
    ('\u{00F4}', 0xF4), ('\u{00F5}', 0xF5), ('\u{00F6}', 0xF6), ('\u{00F7}', 0xF7), 
    ('\u{00F8}', 0xF8), ('\u{00F9}', 0xF9), ('\u{00FA}', 0xFA), ('\u{00FB}', 0xFB), 
    ('\u{00FC}', 0xFC), ('\u{00FF}', 0xFF), ('\u{011E}', 0xD0), ('\u{011F}', 0xF0), 
    ('\u{0130}', 0xDD), ('\u{0131}', 0xFD), ('\u{0152}', 0x8C), ('\u{0153}', 0x9C), 
    ('\u{015E}', 0xDE), ('\u{015F}', 0xFE), ('\u{0160}', 0x8A), ('\u{0161}', 0x9A), 
    ('\u{0178}', 0x9F), ('\u{0192}', 0x83), ('\u{02C6}', 0x88), ('\u{02DC}', 0x98), 
    ('\u{2013}', 0x96), ('\u{2014}', 0x97), ('\u{2018}', 0x91), ('\u{2019}', 0x92), 
    ('\u{201A}', 0x82), ('\u{201C}', 0x93), ('\u{201D}', 0x94), ('\u{201E}', 0x84), 
    ('\u{2020}', 0x86), ('\u{2021}', 0x87), ('\u{2022}', 0x95), ('\u{2026}', 0x85), 
    ('\u{2030}', 0x89), ('\u{2039}', 0x8B), ('\u{203A}', 0x9B), ('\u{20AC}', 0x80), 
    ('\u{2122}', 0x99), 
];
"#

/-- encoding_tables/single_byte/ascii_ext/windows-cp1255.txt:1-274 -/
noncomputable def windows_1255_mapping : List Text := lines! r#"#
#    Name:     cp1255 to Unicode table
#    Unicode version: 2.0
#    Table version: 2.01
#    Table format:  Format A
#    Date:          1/7/2000
#
#    Contact:       Shawn.Steele@microsoft.com
#
#    General notes: none
#
#    Format: Three tab-separated columns
#        Column #1 is the cp1255 code (in hex)
#        Column #2 is the Unicode (in hex as 0xXXXX)
#        Column #3 is the Unicode name (follows a comment sign, '#')
#
#    The entries are in cp1255 order
#
0x00	0x0000	#NULL
0x01	0x0001	#START OF HEADING
0x02	0x0002	#START OF TEXT
0x03	0x0003	#END OF TEXT
0x04	0x0004	#END OF TRANSMISSION
0x05	0x0005	#ENQUIRY
0x06	0x0006	#ACKNOWLEDGE
0x07	0x0007	#BELL
0x08	0x0008	#BACKSPACE
0x09	0x0009	#HORIZONTAL TABULATION
0x0A	0x000A	#LINE FEED
0x0B	0x000B	#VERTICAL TABULATION
0x0C	0x000C	#FORM FEED
0x0D	0x000D	#CARRIAGE RETURN
0x0E	0x000E	#SHIFT OUT
0x0F	0x000F	#SHIFT IN
0x10	0x0010	#DATA LINK ESCAPE
0x11	0x0011	#DEVICE CONTROL ONE
0x12	0x0012	#DEVICE CONTROL TWO
0x13	0x0013	#DEVICE CONTROL THREE
0x14	0x0014	#DEVICE CONTROL FOUR
0x15	0x0015	#NEGATIVE ACKNOWLEDGE
0x16	0x0016	#SYNCHRONOUS IDLE
0x17	0x0017	#END OF TRANSMISSION BLOCK
0x18	0x0018	#CANCEL
0x19	0x0019	#END OF MEDIUM
0x1A	0x001A	#SUBSTITUTE
0x1B	0x001B	#ESCAPE
0x1C	0x001C	#FILE SEPARATOR
0x1D	0x001D	#GROUP SEPARATOR
0x1E	0x001E	#RECORD SEPARATOR
0x1F	0x001F	#UNIT SEPARATOR
0x20	0x0020	#SPACE
0x21	0x0021	#EXCLAMATION MARK
0x22	0x0022	#QUOTATION MARK
0x23	0x0023	#NUMBER SIGN
0x24	0x0024	#DOLLAR SIGN
0x25	0x0025	#PERCENT SIGN
0x26	0x0026	#AMPERSAND
0x27	0x0027	#APOSTROPHE
0x28	0x0028	#LEFT PARENTHESIS
0x29	0x0029	#RIGHT PARENTHESIS
0x2A	0x002A	#ASTERISK
0x2B	0x002B	#PLUS SIGN
0x2C	0x002C	#COMMA
0x2D	0x002D	#HYPHEN-MINUS
0x2E	0x002E	#FULL STOP
0x2F	0x002F	#SOLIDUS
0x30	0x0030	#DIGIT ZERO
0x31	0x0031	#DIGIT ONE
0x32	0x0032	#DIGIT TWO
0x33	0x0033	#DIGIT THREE
0x34	0x0034	#DIGIT FOUR
0x35	0x0035	#DIGIT FIVE
0x36	0x0036	#DIGIT SIX
0x37	0x0037	#DIGIT SEVEN
0x38	0x0038	#DIGIT EIGHT
0x39	0x0039	#DIGIT NINE
0x3A	0x003A	#COLON
0x3B	0x003B	#SEMICOLON
0x3C	0x003C	#LESS-THAN SIGN
0x3D	0x003D	#EQUALS SIGN
0x3E	0x003E	#GREATER-THAN SIGN
0x3F	0x003F	#QUESTION MARK
0x40	0x0040	#COMMERCIAL AT
0x41	0x0041	#LATIN CAPITAL LETTER A
0x42	0x0042	#LATIN CAPITAL LETTER B
0x43	0x0043	#LATIN CAPITAL LETTER C
0x44	0x0044	#LATIN CAPITAL LETTER D
0x45	0x0045	#LATIN CAPITAL LETTER E
0x46	0x0046	#LATIN CAPITAL LETTER F
0x47	0x0047	#LATIN CAPITAL LETTER G
0x48	0x0048	#LATIN CAPITAL LETTER H
0x49	0x0049	#LATIN CAPITAL LETTER I
0x4A	0x004A	#LATIN CAPITAL LETTER J
0x4B	0x004B	#LATIN CAPITAL LETTER K
0x4C	0x004C	#LATIN CAPITAL LETTER L
0x4D	0x004D	#LATIN CAPITAL LETTER M
0x4E	0x004E	#LATIN CAPITAL LETTER N
0x4F	0x004F	#LATIN CAPITAL LETTER O
0x50	0x0050	#LATIN CAPITAL LETTER P
0x51	0x0051	#LATIN CAPITAL LETTER Q
0x52	0x0052	#LATIN CAPITAL LETTER R
0x53	0x0053	#LATIN CAPITAL LETTER S
0x54	0x0054	#LATIN CAPITAL LETTER T
0x55	0x0055	#LATIN CAPITAL LETTER U
0x56	0x0056	#LATIN CAPITAL LETTER V
0x57	0x0057	#LATIN CAPITAL LETTER W
0x58	0x0058	#LATIN CAPITAL LETTER X
0x59	0x0059	#LATIN CAPITAL LETTER Y
0x5A	0x005A	#LATIN CAPITAL LETTER Z
0x5B	0x005B	#LEFT SQUARE BRACKET
0x5C	0x005C	#REVERSE SOLIDUS
0x5D	0x005D	#RIGHT SQUARE BRACKET
0x5E	0x005E	#CIRCUMFLEX ACCENT
0x5F	0x005F	#LOW LINE
0x60	0x0060	#GRAVE ACCENT
0x61	0x0061	#LATIN SMALL LETTER A
0x62	0x0062	#LATIN SMALL LETTER B
0x63	0x0063	#LATIN SMALL LETTER C
0x64	0x0064	#LATIN SMALL LETTER D
0x65	0x0065	#LATIN SMALL LETTER E
0x66	0x0066	#LATIN SMALL LETTER F
0x67	0x0067	#LATIN SMALL LETTER G
0x68	0x0068	#LATIN SMALL LETTER H
0x69	0x0069	#LATIN SMALL LETTER I
0x6A	0x006A	#LATIN SMALL LETTER J
0x6B	0x006B	#LATIN SMALL LETTER K
0x6C	0x006C	#LATIN SMALL LETTER L
0x6D	0x006D	#LATIN SMALL LETTER M
0x6E	0x006E	#LATIN SMALL LETTER N
0x6F	0x006F	#LATIN SMALL LETTER O
0x70	0x0070	#LATIN SMALL LETTER P
0x71	0x0071	#LATIN SMALL LETTER Q
0x72	0x0072	#LATIN SMALL LETTER R
0x73	0x0073	#LATIN SMALL LETTER S
0x74	0x0074	#LATIN SMALL LETTER T
0x75	0x0075	#LATIN SMALL LETTER U
0x76	0x0076	#LATIN SMALL LETTER V
0x77	0x0077	#LATIN SMALL LETTER W
0x78	0x0078	#LATIN SMALL LETTER X
0x79	0x0079	#LATIN SMALL LETTER Y
0x7A	0x007A	#LATIN SMALL LETTER Z
0x7B	0x007B	#LEFT CURLY BRACKET
0x7C	0x007C	#VERTICAL LINE
0x7D	0x007D	#RIGHT CURLY BRACKET
0x7E	0x007E	#TILDE
0x7F	0x007F	#DELETE
0x80	0x20AC	#EURO SIGN
0x81	      	#UNDEFINED
0x82	0x201A	#SINGLE LOW-9 QUOTATION MARK
0x83	0x0192	#LATIN SMALL LETTER F WITH HOOK
0x84	0x201E	#DOUBLE LOW-9 QUOTATION MARK
0x85	0x2026	#HORIZONTAL ELLIPSIS
0x86	0x2020	#DAGGER
0x87	0x2021	#DOUBLE DAGGER
0x88	0x02C6	#MODIFIER LETTER CIRCUMFLEX ACCENT
0x89	0x2030	#PER MILLE SIGN
0x8A	      	#UNDEFINED
0x8B	0x2039	#SINGLE LEFT-POINTING ANGLE QUOTATION MARK
0x8C	      	#UNDEFINED
0x8D	      	#UNDEFINED
0x8E	      	#UNDEFINED
0x8F	      	#UNDEFINED
0x90	      	#UNDEFINED
0x91	0x2018	#LEFT SINGLE QUOTATION MARK
0x92	0x2019	#RIGHT SINGLE QUOTATION MARK
0x93	0x201C	#LEFT DOUBLE QUOTATION MARK
0x94	0x201D	#RIGHT DOUBLE QUOTATION MARK
0x95	0x2022	#BULLET
0x96	0x2013	#EN DASH
0x97	0x2014	#EM DASH
0x98	0x02DC	#SMALL TILDE
0x99	0x2122	#TRADE MARK SIGN
0x9A	      	#UNDEFINED
0x9B	0x203A	#SINGLE RIGHT-POINTING ANGLE QUOTATION MARK
0x9C	      	#UNDEFINED
0x9D	      	#UNDEFINED
0x9E	      	#UNDEFINED
0x9F	      	#UNDEFINED
0xA0	0x00A0	#NO-BREAK SPACE
0xA1	0x00A1	#INVERTED EXCLAMATION MARK
0xA2	0x00A2	#CENT SIGN
0xA3	0x00A3	#POUND SIGN
0xA4	0x20AA	#NEW SHEQEL SIGN
0xA5	0x00A5	#YEN SIGN
0xA6	0x00A6	#BROKEN BAR
0xA7	0x00A7	#SECTION SIGN
0xA8	0x00A8	#DIAERESIS
0xA9	0x00A9	#COPYRIGHT SIGN
0xAA	0x00D7	#MULTIPLICATION SIGN
0xAB	0x00AB	#LEFT-POINTING DOUBLE ANGLE QUOTATION MARK
0xAC	0x00AC	#NOT SIGN
0xAD	0x00AD	#SOFT HYPHEN
0xAE	0x00AE	#REGISTERED SIGN
0xAF	0x00AF	#MACRON
0xB0	0x00B0	#DEGREE SIGN
0xB1	0x00B1	#PLUS-MINUS SIGN
0xB2	0x00B2	#SUPERSCRIPT TWO
0xB3	0x00B3	#SUPERSCRIPT THREE
0xB4	0x00B4	#ACUTE ACCENT
0xB5	0x00B5	#MICRO SIGN
0xB6	0x00B6	#PILCROW SIGN
0xB7	0x00B7	#MIDDLE DOT
0xB8	0x00B8	#CEDILLA
0xB9	0x00B9	#SUPERSCRIPT ONE
0xBA	0x00F7	#DIVISION SIGN
0xBB	0x00BB	#RIGHT-POINTING DOUBLE ANGLE QUOTATION MARK
0xBC	0x00BC	#VULGAR FRACTION ONE QUARTER
0xBD	0x00BD	#VULGAR FRACTION ONE HALF
0xBE	0x00BE	#VULGAR FRACTION THREE QUARTERS
0xBF	0x00BF	#INVERTED QUESTION MARK
0xC0	0x05B0	#HEBREW POINT SHEVA
0xC1	0x05B1	#HEBREW POINT HATAF SEGOL
0xC2	0x05B2	#HEBREW POINT HATAF PATAH
0xC3	0x05B3	#HEBREW POINT HATAF QAMATS
0xC4	0x05B4	#HEBREW POINT HIRIQ
0xC5	0x05B5	#HEBREW POINT TSERE
0xC6	0x05B6	#HEBREW POINT SEGOL
0xC7	0x05B7	#HEBREW POINT PATAH
0xC8	0x05B8	#HEBREW POINT QAMATS
0xC9	0x05B9	#HEBREW POINT HOLAM
0xCA		#UNDEFINED
0xCB	0x05BB	#HEBREW POINT QUBUTS
0xCC	0x05BC	#HEBREW POINT DAGESH OR MAPIQ
0xCD	0x05BD	#HEBREW POINT METEG
0xCE	0x05BE	#HEBREW PUNCTUATION MAQAF
0xCF	0x05BF	#HEBREW POINT RAFE
0xD0	0x05C0	#HEBREW PUNCTUATION PASEQ
0xD1	0x05C1	#HEBREW POINT SHIN DOT
0xD2	0x05C2	#HEBREW POINT SIN DOT
0xD3	0x05C3	#HEBREW PUNCTUATION SOF PASUQ
0xD4	0x05F0	#HEBREW LIGATURE YIDDISH DOUBLE VAV
0xD5	0x05F1	#HEBREW LIGATURE YIDDISH VAV YOD
0xD6	0x05F2	#HEBREW LIGATURE YIDDISH DOUBLE YOD
0xD7	0x05F3	#HEBREW PUNCTUATION GERESH
0xD8	0x05F4	#HEBREW PUNCTUATION GERSHAYIM
0xD9	      	#UNDEFINED
0xDA	      	#UNDEFINED
0xDB	      	#UNDEFINED
0xDC	      	#UNDEFINED
0xDD	      	#UNDEFINED
0xDE	      	#UNDEFINED
0xDF	      	#UNDEFINED
0xE0	0x05D0	#HEBREW LETTER ALEF
0xE1	0x05D1	#HEBREW LETTER BET
0xE2	0x05D2	#HEBREW LETTER GIMEL
0xE3	0x05D3	#HEBREW LETTER DALET
0xE4	0x05D4	#HEBREW LETTER HE
0xE5	0x05D5	#HEBREW LETTER VAV
0xE6	0x05D6	#HEBREW LETTER ZAYIN
0xE7	0x05D7	#HEBREW LETTER HET
0xE8	0x05D8	#HEBREW LETTER TET
0xE9	0x05D9	#HEBREW LETTER YOD
0xEA	0x05DA	#HEBREW LETTER FINAL KAF
0xEB	0x05DB	#HEBREW LETTER KAF
0xEC	0x05DC	#HEBREW LETTER LAMED
0xED	0x05DD	#HEBREW LETTER FINAL MEM
0xEE	0x05DE	#HEBREW LETTER MEM
0xEF	0x05DF	#HEBREW LETTER FINAL NUN
0xF0	0x05E0	#HEBREW LETTER NUN
0xF1	0x05E1	#HEBREW LETTER SAMEKH
0xF2	0x05E2	#HEBREW LETTER AYIN
0xF3	0x05E3	#HEBREW LETTER FINAL PE
0xF4	0x05E4	#HEBREW LETTER PE
0xF5	0x05E5	#HEBREW LETTER FINAL TSADI
0xF6	0x05E6	#HEBREW LETTER TSADI
0xF7	0x05E7	#HEBREW LETTER QOF
0xF8	0x05E8	#HEBREW LETTER RESH
0xF9	0x05E9	#HEBREW LETTER SHIN
0xFA	0x05EA	#HEBREW LETTER TAV
0xFB	      	#UNDEFINED
0xFC	      	#UNDEFINED
0xFD	0x200E	#LEFT-TO-RIGHT MARK
0xFE	0x200F	#RIGHT-TO-LEFT MARK
0xFF	      	#UNDEFINED
"#

/-- src/generated/single_byte/windows-cp1255_tables.rs.inc:1-67 -/
noncomputable def windows_1255_source : List Text := lines! r#"// This file is auto-generated.  Please see `encoding_tables/single_byte/`
// from the root directory for the files that generate this.

use {DecodeResult, EncodeResult};

pub fn decode_to_str<'a>(
    input: &[u8],
    out_buffer: &'a mut [u8],
) -> DecodeResult<'a> {
    super::ascii_ext_decode_to_str(&DECODE_TABLE, input, out_buffer)
}

pub fn encode_from_str<'a>(
    input: &str,
    out_buffer: &'a mut [u8],
) -> EncodeResult<'a> {
    super::ascii_ext_encode_from_str(&ENCODE_TABLE, input, out_buffer)
}

const DECODE_TABLE: [char; 128] = [
    '\u{20AC}','�','\u{201A}','\u{0192}','\u{201E}','\u{2026}','\u{2020}','\u{2021}',
    '\u{02C6}','\u{2030}','�','\u{2039}','�','�','�','�',
    '�','\u{2018}','\u{2019}','\u{201C}','\u{201D}','\u{2022}','\u{2013}','\u{2014}',
    '\u{02DC}','\u{2122}','�','\u{203A}','�','�','�','�',
    '\u{00A0}','\u{00A1}','\u{00A2}','\u{00A3}','\u{20AA}','\u{00A5}','\u{00A6}','\u{00A7}',
    '\u{00A8}','\u{00A9}','\u{00D7}','\u{00AB}','\u{00AC}','\u{00AD}','\u{00AE}','\u{00AF}',
    '\u{00B0}','\u{00B1}','\u{00B2}','\u{00B3}','\u{00B4}','\u{00B5}','\u{00B6}','\u{00B7}',
    '\u{00B8}','\u{00B9}','\u{00F7}','\u{00BB}','\u{00BC}','\u{00BD}','\u{00BE}','\u{00BF}',
    '\u{05B0}','\u{05B1}','\u{05B2}','\u{05B3}','\u{05B4}','\u{05B5}','\u{05B6}','\u{05B7}',
    '\u{05B8}','\u{05B9}','�','\u{05BB}','\u{05BC}','\u{05BD}','\u{05BE}','\u{05BF}',
    '\u{05C0}','\u{05C1}','\u{05C2}','\u{05C3}','\u{05F0}','\u{05F1}','\u{05F2}','\u{05F3}',
    '\u{05F4}','�','�','�','�','�','�','�',
    '\u{05D0}','\u{05D1}','\u{05D2}','\u{05D3}','\u{05D4}','\u{05D5}','\u{05D6}','\u{05D7}',
    '\u{05D8}','\u{05D9}','\u{05DA}','\u{05DB}','\u{05DC}','\u{05DD}','\u{05DE}','\u{05DF}',
    '\u{05E0}','\u{05E1}','\u{05E2}','\u{05E3}','\u{05E4}','\u{05E5}','\u{05E6}','\u{05E7}',
    '\u{05E8}','\u{05E9}','\u{05EA}','�','�','\u{200E}','\u{200F}','�',
];

const ENCODE_TABLE: [(char, u8); 105] = [
    ('\u{00A0}', 0xA0), ('\u{00A1}', 0xA1), ('\u{00A2}', 0xA2), ('\u{00A3}', 0xA3), 
    ('\u{00A5}', 0xA5), ('\u{00A6}', 0xA6), ('\u{00A7}', 0xA7), ('\u{00A8}', 0xA8), 
    ('\u{00A9}', 0xA9), ('\u{00AB}', 0xAB), ('\u{00AC}', 0xAC), ('\u{00AD}', 0xAD), 
    ('\u{00AE}', 0xAE), ('\u{00AF}', 0xAF), ('\u{00B0}', 0xB0), ('\u{00B1}', 0xB1), 
    ('\u{00B2}', 0xB2), ('\u{00B3}', 0xB3), ('\u{00B4}', 0xB4), ('\u{00B5}', 0xB5), 
    ('\u{00B6}', 0xB6), ('\u{00B7}', 0xB7), ('\u{00B8}', 0xB8), ('\u{00B9}', 0xB9), 
    ('\u{00BB}', 0xBB), ('\u{00BC}', 0xBC), ('\u{00BD}', 0xBD), ('\u{00BE}', 0xBE), 
    ('\u{00BF}', 0xBF), ('\u{00D7}', 0xAA), ('\u{00F7}', 0xBA), ('\u{0192}', 0x83), 
    ('\u{02C6}', 0x88), ('\u{02DC}', 0x98), ('\u{05B0}', 0xC0), ('\u{05B1}', 0xC1), 
    ('\u{05B2}', 0xC2), ('\u{05B3}', 0xC3), ('\u{05B4}', 0xC4), ('\u{05B5}', 0xC5), 
    ('\u{05B6}', 0xC6), ('\u{05B7}', 0xC7), ('\u{05B8}', 0xC8), ('\u{05B9}', 0xC9), 
    ('\u{05BB}', 0xCB), ('\u{05BC}', 0xCC), ('\u{05BD}', 0xCD), ('\u{05BE}', 0xCE), 
    ('\u{05BF}', 0xCF), ('\u{05C0}', 0xD0), ('\u{05C1}', 0xD1), ('\u{05C2}', 0xD2), 
    ('\u{05C3}', 0xD3), ('\u{05D0}', 0xE0), ('\u{05D1}', 0xE1), ('\u{05D2}', 0xE2), 
    ('\u{05D3}', 0xE3), ('\u{05D4}', 0xE4), ('\u{05D5}', 0xE5), ('\u{05D6}', 0xE6), 
    ('\u{05D7}', 0xE7), ('\u{05D8}', 0xE8), ('\u{05D9}', 0xE9), ('\u{05DA}', 0xEA), 
    ('\u{05DB}', 0xEB), ('\u{05DC}', 0xEC), ('\u{05DD}', 0xED), ('\u{05DE}', 0xEE), 
    ('\u{05DF}', 0xEF), ('\u{05E0}', 0xF0), ('\u{05E1}', 0xF1), ('\u{05E2}', 0xF2), 
    ('\u{05E3}', 0xF3), ('\u{05E4}', 0xF4), ('\u{05E5}', 0xF5), ('\u{05E6}', 0xF6), 
    ('\u{05E7}', 0xF7), ('\u{05E8}', 0xF8), ('\u{05E9}', 0xF9), ('\u{05EA}', 0xFA), 
    ('\u{05F0}', 0xD4), ('\u{05F1}', 0xD5), ('\u{05F2}', 0xD6), ('\u{05F3}', 0xD7), 
    ('\u{05F4}', 0xD8), ('\u{200E}', 0xFD), ('\u{200F}', 0xFE), ('\u{2013}', 0x96), 
    ('\u{2014}', 0x97), ('\u{2018}', 0x91), ('\u{2019}', 0x92), ('\u{201A}', 0x82), 
    ('\u{201C}', 0x93), ('\u{201D}', 0x94), ('\u{201E}', 0x84), ('\u{2020}', 0x86), 
    ('\u{2021}', 0x87), ('\u{2022}', 0x95), ('\u{2026}', 0x85), ('\u{2030}', 0x89), 
    ('\u{2039}', 0x8B), ('\u{203A}', 0x9B), ('\u{20AA}', 0xA4), ('\u{20AC}', 0x80), 
    ('\u{2122}', 0x99), 
];
"#

/-- encoding_tables/single_byte/ascii_ext/windows-cp1256.txt:1-274 -/
noncomputable def windows_1256_mapping : List Text := lines! r#"#
#    Name:     cp1256 to Unicode table
#    Unicode version: 2.1
#    Table version: 2.01
#    Table format:  Format A
#    Date:          01/5/99
#
#    Contact:       Shawn.Steele@microsoft.com
#
#    General notes: none
#
#    Format: Three tab-separated columns
#        Column #1 is the cp1256 code (in hex)
#        Column #2 is the Unicode (in hex as 0xXXXX)
#        Column #3 is the Unicode name (follows a comment sign, '#')
#
#    The entries are in cp1256 order
#
0x00	0x0000	#NULL
0x01	0x0001	#START OF HEADING
0x02	0x0002	#START OF TEXT
0x03	0x0003	#END OF TEXT
0x04	0x0004	#END OF TRANSMISSION
0x05	0x0005	#ENQUIRY
0x06	0x0006	#ACKNOWLEDGE
0x07	0x0007	#BELL
0x08	0x0008	#BACKSPACE
0x09	0x0009	#HORIZONTAL TABULATION
0x0A	0x000A	#LINE FEED
0x0B	0x000B	#VERTICAL TABULATION
0x0C	0x000C	#FORM FEED
0x0D	0x000D	#CARRIAGE RETURN
0x0E	0x000E	#SHIFT OUT
0x0F	0x000F	#SHIFT IN
0x10	0x0010	#DATA LINK ESCAPE
0x11	0x0011	#DEVICE CONTROL ONE
0x12	0x0012	#DEVICE CONTROL TWO
0x13	0x0013	#DEVICE CONTROL THREE
0x14	0x0014	#DEVICE CONTROL FOUR
0x15	0x0015	#NEGATIVE ACKNOWLEDGE
0x16	0x0016	#SYNCHRONOUS IDLE
0x17	0x0017	#END OF TRANSMISSION BLOCK
0x18	0x0018	#CANCEL
0x19	0x0019	#END OF MEDIUM
0x1A	0x001A	#SUBSTITUTE
0x1B	0x001B	#ESCAPE
0x1C	0x001C	#FILE SEPARATOR
0x1D	0x001D	#GROUP SEPARATOR
0x1E	0x001E	#RECORD SEPARATOR
0x1F	0x001F	#UNIT SEPARATOR
0x20	0x0020	#SPACE
0x21	0x0021	#EXCLAMATION MARK
0x22	0x0022	#QUOTATION MARK
0x23	0x0023	#NUMBER SIGN
0x24	0x0024	#DOLLAR SIGN
0x25	0x0025	#PERCENT SIGN
0x26	0x0026	#AMPERSAND
0x27	0x0027	#APOSTROPHE
0x28	0x0028	#LEFT PARENTHESIS
0x29	0x0029	#RIGHT PARENTHESIS
0x2A	0x002A	#ASTERISK
0x2B	0x002B	#PLUS SIGN
0x2C	0x002C	#COMMA
0x2D	0x002D	#HYPHEN-MINUS
0x2E	0x002E	#FULL STOP
0x2F	0x002F	#SOLIDUS
0x30	0x0030	#DIGIT ZERO
0x31	0x0031	#DIGIT ONE
0x32	0x0032	#DIGIT TWO
0x33	0x0033	#DIGIT THREE
0x34	0x0034	#DIGIT FOUR
0x35	0x0035	#DIGIT FIVE
0x36	0x0036	#DIGIT SIX
0x37	0x0037	#DIGIT SEVEN
0x38	0x0038	#DIGIT EIGHT
0x39	0x0039	#DIGIT NINE
0x3A	0x003A	#COLON
0x3B	0x003B	#SEMICOLON
0x3C	0x003C	#LESS-THAN SIGN
0x3D	0x003D	#EQUALS SIGN
0x3E	0x003E	#GREATER-THAN SIGN
0x3F	0x003F	#QUESTION MARK
0x40	0x0040	#COMMERCIAL AT
0x41	0x0041	#LATIN CAPITAL LETTER A
0x42	0x0042	#LATIN CAPITAL LETTER B
0x43	0x0043	#LATIN CAPITAL LETTER C
0x44	0x0044	#LATIN CAPITAL LETTER D
0x45	0x0045	#LATIN CAPITAL LETTER E
0x46	0x0046	#LATIN CAPITAL LETTER F
0x47	0x0047	#LATIN CAPITAL LETTER G
0x48	0x0048	#LATIN CAPITAL LETTER H
0x49	0x0049	#LATIN CAPITAL LETTER I
0x4A	0x004A	#LATIN CAPITAL LETTER J
0x4B	0x004B	#LATIN CAPITAL LETTER K
0x4C	0x004C	#LATIN CAPITAL LETTER L
0x4D	0x004D	#LATIN CAPITAL LETTER M
0x4E	0x004E	#LATIN CAPITAL LETTER N
0x4F	0x004F	#LATIN CAPITAL LETTER O
0x50	0x0050	#LATIN CAPITAL LETTER P
0x51	0x0051	#LATIN CAPITAL LETTER Q
0x52	0x0052	#LATIN CAPITAL LETTER R
0x53	0x0053	#LATIN CAPITAL LETTER S
0x54	0x0054	#LATIN CAPITAL LETTER T
0x55	0x0055	#LATIN CAPITAL LETTER U
0x56	0x0056	#LATIN CAPITAL LETTER V
0x57	0x0057	#LATIN CAPITAL LETTER W
0x58	0x0058	#LATIN CAPITAL LETTER X
0x59	0x0059	#LATIN CAPITAL LETTER Y
0x5A	0x005A	#LATIN CAPITAL LETTER Z
0x5B	0x005B	#LEFT SQUARE BRACKET
0x5C	0x005C	#REVERSE SOLIDUS
0x5D	0x005D	#RIGHT SQUARE BRACKET
0x5E	0x005E	#CIRCUMFLEX ACCENT
0x5F	0x005F	#LOW LINE
0x60	0x0060	#GRAVE ACCENT
0x61	0x0061	#LATIN SMALL LETTER A
0x62	0x0062	#LATIN SMALL LETTER B
0x63	0x0063	#LATIN SMALL LETTER C
0x64	0x0064	#LATIN SMALL LETTER D
0x65	0x0065	#LATIN SMALL LETTER E
0x66	0x0066	#LATIN SMALL LETTER F
0x67	0x0067	#LATIN SMALL LETTER G
0x68	0x0068	#LATIN SMALL LETTER H
0x69	0x0069	#LATIN SMALL LETTER I
0x6A	0x006A	#LATIN SMALL LETTER J
0x6B	0x006B	#LATIN SMALL LETTER K
0x6C	0x006C	#LATIN SMALL LETTER L
0x6D	0x006D	#LATIN SMALL LETTER M
0x6E	0x006E	#LATIN SMALL LETTER N
0x6F	0x006F	#LATIN SMALL LETTER O
0x70	0x0070	#LATIN SMALL LETTER P
0x71	0x0071	#LATIN SMALL LETTER Q
0x72	0x0072	#LATIN SMALL LETTER R
0x73	0x0073	#LATIN SMALL LETTER S
0x74	0x0074	#LATIN SMALL LETTER T
0x75	0x0075	#LATIN SMALL LETTER U
0x76	0x0076	#LATIN SMALL LETTER V
0x77	0x0077	#LATIN SMALL LETTER W
0x78	0x0078	#LATIN SMALL LETTER X
0x79	0x0079	#LATIN SMALL LETTER Y
0x7A	0x007A	#LATIN SMALL LETTER Z
0x7B	0x007B	#LEFT CURLY BRACKET
0x7C	0x007C	#VERTICAL LINE
0x7D	0x007D	#RIGHT CURLY BRACKET
0x7E	0x007E	#TILDE
0x7F	0x007F	#DELETE
0x80	0x20AC	#EURO SIGN
0x81	0x067E	#ARABIC LETTER PEH
0x82	0x201A	#SINGLE LOW-9 QUOTATION MARK
0x83	0x0192	#LATIN SMALL LETTER F WITH HOOK
0x84	0x201E	#DOUBLE LOW-9 QUOTATION MARK
0x85	0x2026	#HORIZONTAL ELLIPSIS
0x86	0x2020	#DAGGER
0x87	0x2021	#DOUBLE DAGGER
0x88	0x02C6	#MODIFIER LETTER CIRCUMFLEX ACCENT
0x89	0x2030	#PER MILLE SIGN
0x8A	0x0679	#ARABIC LETTER TTEH
0x8B	0x2039	#SINGLE LEFT-POINTING ANGLE QUOTATION MARK
0x8C	0x0152	#LATIN CAPITAL LIGATURE OE
0x8D	0x0686	#ARABIC LETTER TCHEH
0x8E	0x0698	#ARABIC LETTER JEH
0x8F	0x0688	#ARABIC LETTER DDAL
0x90	0x06AF	#ARABIC LETTER GAF
0x91	0x2018	#LEFT SINGLE QUOTATION MARK
0x92	0x2019	#RIGHT SINGLE QUOTATION MARK
0x93	0x201C	#LEFT DOUBLE QUOTATION MARK
0x94	0x201D	#RIGHT DOUBLE QUOTATION MARK
0x95	0x2022	#BULLET
0x96	0x2013	#EN DASH
0x97	0x2014	#EM DASH
0x98	0x06A9	#ARABIC LETTER KEHEH
0x99	0x2122	#TRADE MARK SIGN
0x9A	0x0691	#ARABIC LETTER RREH
0x9B	0x203A	#SINGLE RIGHT-POINTING ANGLE QUOTATION MARK
0x9C	0x0153	#LATIN SMALL LIGATURE OE
0x9D	0x200C	#ZERO WIDTH NON-JOINER
0x9E	0x200D	#ZERO WIDTH JOINER
0x9F	0x06BA	#ARABIC LETTER NOON GHUNNA
0xA0	0x00A0	#NO-BREAK SPACE
0xA1	0x060C	#ARABIC COMMA
0xA2	0x00A2	#CENT SIGN
0xA3	0x00A3	#POUND SIGN
0xA4	0x00A4	#CURRENCY SIGN
0xA5	0x00A5	#YEN SIGN
0xA6	0x00A6	#BROKEN BAR
0xA7	0x00A7	#SECTION SIGN
0xA8	0x00A8	#DIAERESIS
0xA9	0x00A9	#COPYRIGHT SIGN
0xAA	0x06BE	#ARABIC LETTER HEH DOACHASHMEE
0xAB	0x00AB	#LEFT-POINTING DOUBLE ANGLE QUOTATION MARK
0xAC	0x00AC	#NOT SIGN
0xAD	0x00AD	#SOFT HYPHEN
0xAE	0x00AE	#REGISTERED SIGN
0xAF	0x00AF	#MACRON
0xB0	0x00B0	#DEGREE SIGN
0xB1	0x00B1	#PLUS-MINUS SIGN
0xB2	0x00B2	#SUPERSCRIPT TWO
0xB3	0x00B3	#SUPERSCRIPT THREE
0xB4	0x00B4	#ACUTE ACCENT
0xB5	0x00B5	#MICRO SIGN
0xB6	0x00B6	#PILCROW SIGN
0xB7	0x00B7	#MIDDLE DOT
0xB8	0x00B8	#CEDILLA
0xB9	0x00B9	#SUPERSCRIPT ONE
0xBA	0x061B	#ARABIC SEMICOLON
0xBB	0x00BB	#RIGHT-POINTING DOUBLE ANGLE QUOTATION MARK
0xBC	0x00BC	#VULGAR FRACTION ONE QUARTER
0xBD	0x00BD	#VULGAR FRACTION ONE HALF
0xBE	0x00BE	#VULGAR FRACTION THREE QUARTERS
0xBF	0x061F	#ARABIC QUESTION MARK
0xC0	0x06C1	#ARABIC LETTER HEH GOAL
0xC1	0x0621	#ARABIC LETTER HAMZA
0xC2	0x0622	#ARABIC LETTER ALEF WITH MADDA ABOVE
0xC3	0x0623	#ARABIC LETTER ALEF WITH HAMZA ABOVE
0xC4	0x0624	#ARABIC LETTER WAW WITH HAMZA ABOVE
0xC5	0x0625	#ARABIC LETTER ALEF WITH HAMZA BELOW
0xC6	0x0626	#ARABIC LETTER YEH WITH HAMZA ABOVE
0xC7	0x0627	#ARABIC LETTER ALEF
0xC8	0x0628	#ARABIC LETTER BEH
0xC9	0x0629	#ARABIC LETTER TEH MARBUTA
0xCA	0x062A	#ARABIC LETTER TEH
0xCB	0x062B	#ARABIC LETTER THEH
0xCC	0x062C	#ARABIC LETTER JEEM
0xCD	0x062D	#ARABIC LETTER HAH
0xCE	0x062E	#ARABIC LETTER KHAH
0xCF	0x062F	#ARABIC LETTER DAL
0xD0	0x0630	#ARABIC LETTER THAL
0xD1	0x0631	#ARABIC LETTER REH
0xD2	0x0632	#ARABIC LETTER ZAIN
0xD3	0x0633	#ARABIC LETTER SEEN
0xD4	0x0634	#ARABIC LETTER SHEEN
0xD5	0x0635	#ARABIC LETTER SAD
0xD6	0x0636	#ARABIC LETTER DAD
0xD7	0x00D7	#MULTIPLICATION SIGN
0xD8	0x0637	#ARABIC LETTER TAH
0xD9	0x0638	#ARABIC LETTER ZAH
0xDA	0x0639	#ARABIC LETTER AIN
0xDB	0x063A	#ARABIC LETTER GHAIN
0xDC	0x0640	#ARABIC TATWEEL
0xDD	0x0641	#ARABIC LETTER FEH
0xDE	0x0642	#ARABIC LETTER QAF
0xDF	0x0643	#ARABIC LETTER KAF
0xE0	0x00E0	#LATIN SMALL LETTER A WITH GRAVE
0xE1	0x0644	#ARABIC LETTER LAM
0xE2	0x00E2	#LATIN SMALL LETTER A WITH CIRCUMFLEX
0xE3	0x0645	#ARABIC LETTER MEEM
0xE4	0x0646	#ARABIC LETTER NOON
0xE5	0x0647	#ARABIC LETTER HEH
0xE6	0x0648	#ARABIC LETTER WAW
0xE7	0x00E7	#LATIN SMALL LETTER C WITH CEDILLA
0xE8	0x00E8	#LATIN SMALL LETTER E WITH GRAVE
0xE9	0x00E9	#LATIN SMALL LETTER E WITH ACUTE
0xEA	0x00EA	#LATIN SMALL LETTER E WITH CIRCUMFLEX
0xEB	0x00EB	#LATIN SMALL LETTER E WITH DIAERESIS
0xEC	0x0649	#ARABIC LETTER ALEF MAKSURA
0xED	0x064A	#ARABIC LETTER YEH
0xEE	0x00EE	#LATIN SMALL LETTER I WITH CIRCUMFLEX
0xEF	0x00EF	#LATIN SMALL LETTER I WITH DIAERESIS
0xF0	0x064B	#ARABIC FATHATAN
0xF1	0x064C	#ARABIC DAMMATAN
0xF2	0x064D	#ARABIC KASRATAN
0xF3	0x064E	#ARABIC FATHA
0xF4	0x00F4	#LATIN SMALL LETTER O WITH CIRCUMFLEX
0xF5	0x064F	#ARABIC DAMMA
0xF6	0x0650	#ARABIC KASRA
0xF7	0x00F7	#DIVISION SIGN
0xF8	0x0651	#ARABIC SHADDA
0xF9	0x00F9	#LATIN SMALL LETTER U WITH GRAVE
0xFA	0x0652	#ARABIC SUKUN
0xFB	0x00FB	#LATIN SMALL LETTER U WITH CIRCUMFLEX
0xFC	0x00FC	#LATIN SMALL LETTER U WITH DIAERESIS
0xFD	0x200E	#LEFT-TO-RIGHT MARK
0xFE	0x200F	#RIGHT-TO-LEFT MARK
0xFF	0x06D2	#ARABIC LETTER YEH BARREE
"#

/-- src/generated/single_byte/windows-cp1256_tables.rs.inc:1-72 -/
noncomputable def windows_1256_source : List Text := lines! r#"// This file is auto-generated.  Please see `encoding_tables/single_byte/`
// from the root directory for the files that generate this.

use {DecodeResult, EncodeResult};

pub fn decode_to_str<'a>(
    input: &[u8],
    out_buffer: &'a mut [u8],
) -> DecodeResult<'a> {
    super::ascii_ext_decode_to_str(&DECODE_TABLE, input, out_buffer)
}

pub fn encode_from_str<'a>(
    input: &str,
    out_buffer: &'a mut [u8],
) -> EncodeResult<'a> {
    super::ascii_ext_encode_from_str(&ENCODE_TABLE, input, out_buffer)
}

const DECODE_TABLE: [char; 128] = [
    '\u{20AC}','\u{067E}','\u{201A}','\u{0192}','\u{201E}','\u{2026}','\u{2020}','\u{2021}',
    '\u{02C6}','\u{2030}','\u{0679}','\u{2039}','\u{0152}','\u{0686}','\u{0698}','\u{0688}',
    '\u{06AF}','\u{2018}','\u{2019}','\u{201C}','\u{201D}','\u{2022}','\u{2013}','\u{2014}',
    '\u{06A9}','\u{2122}','\u{0691}','\u{203A}','\u{0153}','\u{200C}','\u{200D}','\u{06BA}',
    '\u{00A0}','\u{060C}','\u{00A2}','\u{00A3}','\u{00A4}','\u{00A5}','\u{00A6}','\u{00A7}',
    '\u{00A8}','\u{00A9}','\u{06BE}','\u{00AB}','\u{00AC}','\u{00AD}','\u{00AE}','\u{00AF}',
    '\u{00B0}','\u{00B1}','\u{00B2}','\u{00B3}','\u{00B4}','\u{00B5}','\u{00B6}','\u{00B7}',
    '\u{00B8}','\u{00B9}','\u{061B}','\u{00BB}','\u{00BC}','\u{00BD}','\u{00BE}','\u{061F}',
    '\u{06C1}','\u{0621}','\u{0622}','\u{0623}','\u{0624}','\u{0625}','\u{0626}','\u{0627}',
    '\u{0628}','\u{0629}','\u{062A}','\u{062B}','\u{062C}','\u{062D}','\u{062E}','\u{062F}',
    '\u{0630}','\u{0631}','\u{0632}','\u{0633}','\u{0634}','\u{0635}','\u{0636}','\u{00D7}',
    '\u{0637}','\u{0638}','\u{0639}','\u{063A}','\u{0640}','\u{0641}','\u{0642}','\u{0643}',
    '\u{00E0}','\u{0644}','\u{00E2}','\u{0645}','\u{0646}','\u{0647}','\u{0648}','\u{00E7}',
    '\u{00E8}','\u{00E9}','\u{00EA}','\u{00EB}','\u{0649}','\u{064A}','\u{00EE}','\u{00EF}',
    '\u{064B}','\u{064C}','\u{064D}','\u{064E}','\u{00F4}','\u{064F}','\u{0650}','\u{00F7}',
    '\u{0651}','\u{00F9}','\u{0652}','\u{00FB}','\u{00FC}','\u{200E}','\u{200F}','\u{06D2}',
];

const ENCODE_TABLE: [(char, u8); 128] = [
    ('\u{00A0}', 0xA0), ('\u{00A2}', 0xA2), ('\u{00A3}', 0xA3), ('\u{00A4}', 0xA4), 
    ('\u{00A5}', 0xA5), ('\u{00A6}', 0xA6), ('\u{00A7}', 0xA7), ('\u{00A8}', 0xA8), 
    ('\u{00A9}', 0xA9), ('\u{00AB}', 0xAB), ('\u{00AC}', 0xAC), ('\u{00AD}', 0xAD), 
    ('\u{00AE}', 0xAE), ('\u{00AF}', 0xAF), ('\u{00B0}', 0xB0), ('\u{00B1}', 0xB1), 
    ('\u{00B2}', 0xB2), ('\u{00B3}', 0xB3), ('\u{00B4}', 0xB4), ('\u{00B5}', 0xB5), 
    ('\u{00B6}', 0xB6), ('\u{00B7}', 0xB7), ('\u{00B8}', 0xB8), ('\u{00B9}', 0xB9), 
    ('\u{00BB}', 0xBB), ('\u{00BC}', 0xBC), ('\u{00BD}', 0xBD), ('\u{00BE}', 0xBE), 
    ('\u{00D7}', 0xD7), ('\u{00E0}', 0xE0), ('\u{00E2}', 0xE2), ('\u{00E7}', 0xE7), 
    ('\u{00E8}', 0xE8), ('\u{00E9}', 0xE9), ('\u{00EA}', 0xEA), ('\u{00EB}', 0xEB), 
    ('\u{00EE}', 0xEE), ('\u{00EF}', 0xEF), ('\u{00F4}', 0xF4), ('\u{00F7}', 0xF7), 
    ('\u{00F9}', 0xF9), ('\u{00FB}', 0xFB), ('\u{00FC}', 0xFC), ('\u{0152}', 0x8C), 
    ('\u{0153}', 0x9C), ('\u{0192}', 0x83), ('\u{02C6}', 0x88), ('\u{060C}', 0xA1), 
    ('\u{061B}', 0xBA), ('\u{061F}', 0xBF), ('\u{0621}', 0xC1), ('\u{0622}', 0xC2), 
    ('\u{0623}', 0xC3), ('\u{0624}', 0xC4), ('\u{0625}', 0xC5), ('\u{0626}', 0xC6), 
    ('\u{0627}', 0xC7), ('\u{0628}', 0xC8), ('\u{0629}', 0xC9), ('\u{062A}', 0xCA), 
    ('\u{062B}', 0xCB), ('\u{062C}', 0xCC), ('\u{062D}', 0xCD), ('\u{062E}', 0xCE), 
    ('\u{062F}', 0xCF), ('\u{0630}', 0xD0), ('\u{0631}', 0xD1), ('\u{0632}', 0xD2), 
    ('\u{0633}', 0xD3), ('\u{0634}', 0xD4), ('\u{0635}', 0xD5), ('\u{0636}', 0xD6), 
    ('\u{0637}', 0xD8), ('\u{0638}', 0xD9), ('\u{0639}', 0xDA), ('\u{063A}', 0xDB), 
    ('\u{0640}', 0xDC), ('\u{0641}', 0xDD), ('\u{0642}', 0xDE), ('\u{0643}', 0xDF), 
    ('\u{0644}', 0xE1), ('\u{0645}', 0xE3), ('\u{0646}', 0xE4), ('\u{0647}', 0xE5), 
    ('\u{0648}', 0xE6), ('\u{0649}', 0xEC), ('\u{064A}', 0xED), ('\u{064B}', 0xF0), 
    ('\u{064C}', 0xF1), ('\u{064D}', 0xF2), ('\u{064E}', 0xF3), ('\u{064F}', 0xF5), 
    ('\u{0650}', 0xF6), ('\u{0651}', 0xF8), ('\u{0652}', 0xFA), ('\u{0679}', 0x8A), 
    ('\u{067E}', 0x81), ('\u{0686}', 0x8D), ('\u{0688}', 0x8F), ('\u{0691}', 0x9A), 
    ('\u{0698}', 0x8E), ('\u{06A9}', 0x98), ('\u{06AF}', 0x90), ('\u{06BA}', 0x9F), 
    ('\u{06BE}', 0xAA), ('\u{06C1}', 0xC0), ('\u{06D2}', 0xFF), ('\u{200C}', 0x9D), 
    ('\u{200D}', 0x9E), ('\u{200E}', 0xFD), ('\u{200F}', 0xFE), ('\u{2013}', 0x96), 
    ('\u{2014}', 0x97), ('\u{2018}', 0x91), ('\u{2019}', 0x92), ('\u{201A}', 0x82), 
    ('\u{201C}', 0x93), ('\u{201D}', 0x94), ('\u{201E}', 0x84), ('\u{2020}', 0x86), 
    ('\u{2021}', 0x87), ('\u{2022}', 0x95), ('\u{2026}', 0x85), ('\u{2030}', 0x89), 
    ('\u{2039}', 0x8B), ('\u{203A}', 0x9B), ('\u{20AC}', 0x80), ('\u{2122}', 0x99), 
];
"#

/-- encoding_tables/single_byte/ascii_ext/windows-cp1257.txt:1-274 -/
noncomputable def windows_1257_mapping : List Text := lines! r#"#
#    Name:     cp1257 to Unicode table
#    Unicode version: 2.0
#    Table version: 2.01
#    Table format:  Format A
#    Date:          04/15/98
#
#    Contact:       Shawn.Steele@microsoft.com
#
#    General notes: none
#
#    Format: Three tab-separated columns
#        Column #1 is the cp1257 code (in hex)
#        Column #2 is the Unicode (in hex as 0xXXXX)
#        Column #3 is the Unicode name (follows a comment sign, '#')
#
#    The entries are in cp1257 order
#
0x00	0x0000	#NULL
0x01	0x0001	#START OF HEADING
0x02	0x0002	#START OF TEXT
0x03	0x0003	#END OF TEXT
0x04	0x0004	#END OF TRANSMISSION
0x05	0x0005	#ENQUIRY
0x06	0x0006	#ACKNOWLEDGE
0x07	0x0007	#BELL
0x08	0x0008	#BACKSPACE
0x09	0x0009	#HORIZONTAL TABULATION
0x0A	0x000A	#LINE FEED
0x0B	0x000B	#VERTICAL TABULATION
0x0C	0x000C	#FORM FEED
0x0D	0x000D	#CARRIAGE RETURN
0x0E	0x000E	#SHIFT OUT
0x0F	0x000F	#SHIFT IN
0x10	0x0010	#DATA LINK ESCAPE
0x11	0x0011	#DEVICE CONTROL ONE
0x12	0x0012	#DEVICE CONTROL TWO
0x13	0x0013	#DEVICE CONTROL THREE
0x14	0x0014	#DEVICE CONTROL FOUR
0x15	0x0015	#NEGATIVE ACKNOWLEDGE
0x16	0x0016	#SYNCHRONOUS IDLE
0x17	0x0017	#END OF TRANSMISSION BLOCK
0x18	0x0018	#CANCEL
0x19	0x0019	#END OF MEDIUM
0x1A	0x001A	#SUBSTITUTE
0x1B	0x001B	#ESCAPE
0x1C	0x001C	#FILE SEPARATOR
0x1D	0x001D	#GROUP SEPARATOR
0x1E	0x001E	#RECORD SEPARATOR
0x1F	0x001F	#UNIT SEPARATOR
0x20	0x0020	#SPACE
0x21	0x0021	#EXCLAMATION MARK
0x22	0x0022	#QUOTATION MARK
0x23	0x0023	#NUMBER SIGN
0x24	0x0024	#DOLLAR SIGN
0x25	0x0025	#PERCENT SIGN
0x26	0x0026	#AMPERSAND
0x27	0x0027	#APOSTROPHE
0x28	0x0028	#LEFT PARENTHESIS
0x29	0x0029	#RIGHT PARENTHESIS
0x2A	0x002A	#ASTERISK
0x2B	0x002B	#PLUS SIGN
0x2C	0x002C	#COMMA
0x2D	0x002D	#HYPHEN-MINUS
0x2E	0x002E	#FULL STOP
0x2F	0x002F	#SOLIDUS
0x30	0x0030	#DIGIT ZERO
0x31	0x0031	#DIGIT ONE
0x32	0x0032	#DIGIT TWO
0x33	0x0033	#DIGIT THREE
0x34	0x0034	#DIGIT FOUR
0x35	0x0035	#DIGIT FIVE
0x36	0x0036	#DIGIT SIX
0x37	0x0037	#DIGIT SEVEN
0x38	0x0038	#DIGIT EIGHT
0x39	0x0039	#DIGIT NINE
0x3A	0x003A	#COLON
0x3B	0x003B	#SEMICOLON
0x3C	0x003C	#LESS-THAN SIGN
0x3D	0x003D	#EQUALS SIGN
0x3E	0x003E	#GREATER-THAN SIGN
0x3F	0x003F	#QUESTION MARK
0x40	0x0040	#COMMERCIAL AT
0x41	0x0041	#LATIN CAPITAL LETTER A
0x42	0x0042	#LATIN CAPITAL LETTER B
0x43	0x0043	#LATIN CAPITAL LETTER C
0x44	0x0044	#LATIN CAPITAL LETTER D
0x45	0x0045	#LATIN CAPITAL LETTER E
0x46	0x0046	#LATIN CAPITAL LETTER F
0x47	0x0047	#LATIN CAPITAL LETTER G
0x48	0x0048	#LATIN CAPITAL LETTER H
0x49	0x0049	#LATIN CAPITAL LETTER I
0x4A	0x004A	#LATIN CAPITAL LETTER J
0x4B	0x004B	#LATIN CAPITAL LETTER K
0x4C	0x004C	#LATIN CAPITAL LETTER L
0x4D	0x004D	#LATIN CAPITAL LETTER M
0x4E	0x004E	#LATIN CAPITAL LETTER N
0x4F	0x004F	#LATIN CAPITAL LETTER O
0x50	0x0050	#LATIN CAPITAL LETTER P
0x51	0x0051	#LATIN CAPITAL LETTER Q
0x52	0x0052	#LATIN CAPITAL LETTER R
0x53	0x0053	#LATIN CAPITAL LETTER S
0x54	0x0054	#LATIN CAPITAL LETTER T
0x55	0x0055	#LATIN CAPITAL LETTER U
0x56	0x0056	#LATIN CAPITAL LETTER V
0x57	0x0057	#LATIN CAPITAL LETTER W
0x58	0x0058	#LATIN CAPITAL LETTER X
0x59	0x0059	#LATIN CAPITAL LETTER Y
0x5A	0x005A	#LATIN CAPITAL LETTER Z
0x5B	0x005B	#LEFT SQUARE BRACKET
0x5C	0x005C	#REVERSE SOLIDUS
0x5D	0x005D	#RIGHT SQUARE BRACKET
0x5E	0x005E	#CIRCUMFLEX ACCENT
0x5F	0x005F	#LOW LINE
0x60	0x0060	#GRAVE ACCENT
0x61	0x0061	#LATIN SMALL LETTER A
0x62	0x0062	#LATIN SMALL LETTER B
0x63	0x0063	#LATIN SMALL LETTER C
0x64	0x0064	#LATIN SMALL LETTER D
0x65	0x0065	#LATIN SMALL LETTER E
0x66	0x0066	#LATIN SMALL LETTER F
0x67	0x0067	#LATIN SMALL LETTER G
0x68	0x0068	#LATIN SMALL LETTER H
0x69	0x0069	#LATIN SMALL LETTER I
0x6A	0x006A	#LATIN SMALL LETTER J
0x6B	0x006B	#LATIN SMALL LETTER K
0x6C	0x006C	#LATIN SMALL LETTER L
0x6D	0x006D	#LATIN SMALL LETTER M
0x6E	0x006E	#LATIN SMALL LETTER N
0x6F	0x006F	#LATIN SMALL LETTER O
0x70	0x0070	#LATIN SMALL LETTER P
0x71	0x0071	#LATIN SMALL LETTER Q
0x72	0x0072	#LATIN SMALL LETTER R
0x73	0x0073	#LATIN SMALL LETTER S
0x74	0x0074	#LATIN SMALL LETTER T
0x75	0x0075	#LATIN SMALL LETTER U
0x76	0x0076	#LATIN SMALL LETTER V
0x77	0x0077	#LATIN SMALL LETTER W
0x78	0x0078	#LATIN SMALL LETTER X
0x79	0x0079	#LATIN SMALL LETTER Y
0x7A	0x007A	#LATIN SMALL LETTER Z
0x7B	0x007B	#LEFT CURLY BRACKET
0x7C	0x007C	#VERTICAL LINE
0x7D	0x007D	#RIGHT CURLY BRACKET
0x7E	0x007E	#TILDE
0x7F	0x007F	#DELETE
0x80	0x20AC	#EURO SIGN
0x81	      	#UNDEFINED
0x82	0x201A	#SINGLE LOW-9 QUOTATION MARK
0x83	      	#UNDEFINED
0x84	0x201E	#DOUBLE LOW-9 QUOTATION MARK
0x85	0x2026	#HORIZONTAL ELLIPSIS
0x86	0x2020	#DAGGER
0x87	0x2021	#DOUBLE DAGGER
0x88	      	#UNDEFINED
0x89	0x2030	#PER MILLE SIGN
0x8A	      	#UNDEFINED
0x8B	0x2039	#SINGLE LEFT-POINTING ANGLE QUOTATION MARK
0x8C	      	#UNDEFINED
0x8D	0x00A8	#DIAERESIS
0x8E	0x02C7	#CARON
0x8F	0x00B8	#CEDILLA
0x90	      	#UNDEFINED
0x91	0x2018	#LEFT SINGLE QUOTATION MARK
0x92	0x2019	#RIGHT SINGLE QUOTATION MARK
0x93	0x201C	#LEFT DOUBLE QUOTATION MARK
0x94	0x201D	#RIGHT DOUBLE QUOTATION MARK
0x95	0x2022	#BULLET
0x96	0x2013	#EN DASH
0x97	0x2014	#EM DASH
0x98	      	#UNDEFINED
0x99	0x2122	#TRADE MARK SIGN
0x9A	      	#UNDEFINED
0x9B	0x203A	#SINGLE RIGHT-POINTING ANGLE QUOTATION MARK
0x9C	      	#UNDEFINED
0x9D	0x00AF	#MACRON
0x9E	0x02DB	#OGONEK
0x9F	      	#UNDEFINED
0xA0	0x00A0	#NO-BREAK SPACE
0xA1	      	#UNDEFINED
0xA2	0x00A2	#CENT SIGN
0xA3	0x00A3	#POUND SIGN
0xA4	0x00A4	#CURRENCY SIGN
0xA5	      	#UNDEFINED
0xA6	0x00A6	#BROKEN BAR
0xA7	0x00A7	#SECTION SIGN
0xA8	0x00D8	#LATIN CAPITAL LETTER O WITH STROKE
0xA9	0x00A9	#COPYRIGHT SIGN
0xAA	0x0156	#LATIN CAPITAL LETTER R WITH CEDILLA
0xAB	0x00AB	#LEFT-POINTING DOUBLE ANGLE QUOTATION MARK
0xAC	0x00AC	#NOT SIGN
0xAD	0x00AD	#SOFT HYPHEN
0xAE	0x00AE	#REGISTERED SIGN
0xAF	0x00C6	#LATIN CAPITAL LETTER AE
0xB0	0x00B0	#DEGREE SIGN
0xB1	0x00B1	#PLUS-MINUS SIGN
0xB2	0x00B2	#SUPERSCRIPT TWO
0xB3	0x00B3	#SUPERSCRIPT THREE
0xB4	0x00B4	#ACUTE ACCENT
0xB5	0x00B5	#MICRO SIGN
0xB6	0x00B6	#PILCROW SIGN
0xB7	0x00B7	#MIDDLE DOT
0xB8	0x00F8	#LATIN SMALL LETTER O WITH STROKE
0xB9	0x00B9	#SUPERSCRIPT ONE
0xBA	0x0157	#LATIN SMALL LETTER R WITH CEDILLA
0xBB	0x00BB	#RIGHT-POINTING DOUBLE ANGLE QUOTATION MARK
0xBC	0x00BC	#VULGAR FRACTION ONE QUARTER
0xBD	0x00BD	#VULGAR FRACTION ONE HALF
0xBE	0x00BE	#VULGAR FRACTION THREE QUARTERS
0xBF	0x00E6	#LATIN SMALL LETTER AE
0xC0	0x0104	#LATIN CAPITAL LETTER A WITH OGONEK
0xC1	0x012E	#LATIN CAPITAL LETTER I WITH OGONEK
0xC2	0x0100	#LATIN CAPITAL LETTER A WITH MACRON
0xC3	0x0106	#LATIN CAPITAL LETTER C WITH ACUTE
0xC4	0x00C4	#LATIN CAPITAL LETTER A WITH DIAERESIS
0xC5	0x00C5	#LATIN CAPITAL LETTER A WITH RING ABOVE
0xC6	0x0118	#LATIN CAPITAL LETTER E WITH OGONEK
0xC7	0x0112	#LATIN CAPITAL LETTER E WITH MACRON
0xC8	0x010C	#LATIN CAPITAL LETTER C WITH CARON
0xC9	0x00C9	#LATIN CAPITAL LETTER E WITH ACUTE
0xCA	0x0179	#LATIN CAPITAL LETTER Z WITH ACUTE
0xCB	0x0116	#LATIN CAPITAL LETTER E WITH DOT ABOVE
0xCC	0x0122	#LATIN CAPITAL LETTER G WITH CEDILLA
0xCD	0x0136	#LATIN CAPITAL LETTER K WITH CEDILLA
0xCE	0x012A	#LATIN CAPITAL LETTER I WITH MACRON
0xCF	0x013B	#LATIN CAPITAL LETTER L WITH CEDILLA
0xD0	0x0160	#LATIN CAPITAL LETTER S WITH CARON
0xD1	0x0143	#LATIN CAPITAL LETTER N WITH ACUTE
0xD2	0x0145	#LATIN CAPITAL LETTER N WITH CEDILLA
0xD3	0x00D3	#LATIN CAPITAL LETTER O WITH ACUTE
0xD4	0x014C	#LATIN CAPITAL LETTER O WITH MACRON
0xD5	0x00D5	#LATIN CAPITAL LETTER O WITH TILDE
0xD6	0x00D6	#LATIN CAPITAL LETTER O WITH DIAERESIS
0xD7	0x00D7	#MULTIPLICATION SIGN
0xD8	0x0172	#LATIN CAPITAL LETTER U WITH OGONEK
0xD9	0x0141	#LATIN CAPITAL LETTER L WITH STROKE
0xDA	0x015A	#LATIN CAPITAL LETTER S WITH ACUTE
0xDB	0x016A	#LATIN CAPITAL LETTER U WITH MACRON
0xDC	0x00DC	#LATIN CAPITAL LETTER U WITH DIAERESIS
0xDD	0x017B	#LATIN CAPITAL LETTER Z WITH DOT ABOVE
0xDE	0x017D	#LATIN CAPITAL LETTER Z WITH CARON
0xDF	0x00DF	#LATIN SMALL LETTER SHARP S
0xE0	0x0105	#LATIN SMALL LETTER A WITH OGONEK
0xE1	0x012F	#LATIN SMALL LETTER I WITH OGONEK
0xE2	0x0101	#LATIN SMALL LETTER A WITH MACRON
0xE3	0x0107	#LATIN SMALL LETTER C WITH ACUTE
0xE4	0x00E4	#LATIN SMALL LETTER A WITH DIAERESIS
0xE5	0x00E5	#LATIN SMALL LETTER A WITH RING ABOVE
0xE6	0x0119	#LATIN SMALL LETTER E WITH OGONEK
0xE7	0x0113	#LATIN SMALL LETTER E WITH MACRON
0xE8	0x010D	#LATIN SMALL LETTER C WITH CARON
0xE9	0x00E9	#LATIN SMALL LETTER E WITH ACUTE
0xEA	0x017A	#LATIN SMALL LETTER Z WITH ACUTE
0xEB	0x0117	#LATIN SMALL LETTER E WITH DOT ABOVE
0xEC	0x0123	#LATIN SMALL LETTER G WITH CEDILLA
0xED	0x0137	#LATIN SMALL LETTER K WITH CEDILLA
0xEE	0x012B	#LATIN SMALL LETTER I WITH MACRON
0xEF	0x013C	#LATIN SMALL LETTER L WITH CEDILLA
0xF0	0x0161	#LATIN SMALL LETTER S WITH CARON
0xF1	0x0144	#LATIN SMALL LETTER N WITH ACUTE
0xF2	0x0146	#LATIN SMALL LETTER N WITH CEDILLA
0xF3	0x00F3	#LATIN SMALL LETTER O WITH ACUTE
0xF4	0x014D	#LATIN SMALL LETTER O WITH MACRON
0xF5	0x00F5	#LATIN SMALL LETTER O WITH TILDE
0xF6	0x00F6	#LATIN SMALL LETTER O WITH DIAERESIS
0xF7	0x00F7	#DIVISION SIGN
0xF8	0x0173	#LATIN SMALL LETTER U WITH OGONEK
0xF9	0x0142	#LATIN SMALL LETTER L WITH STROKE
0xFA	0x015B	#LATIN SMALL LETTER S WITH ACUTE
0xFB	0x016B	#LATIN SMALL LETTER U WITH MACRON
0xFC	0x00FC	#LATIN SMALL LETTER U WITH DIAERESIS
0xFD	0x017C	#LATIN SMALL LETTER Z WITH DOT ABOVE
0xFE	0x017E	#LATIN SMALL LETTER Z WITH CARON
0xFF	0x02D9	#DOT ABOVE
"#

/-- src/generated/single_byte/windows-cp1257_tables.rs.inc:1-69 -/
noncomputable def windows_1257_source : List Text := lines! r#"// This file is auto-generated.  Please see `encoding_tables/single_byte/`
// from the root directory for the files that generate this.

use {DecodeResult, EncodeResult};

pub fn decode_to_str<'a>(
    input: &[u8],
    out_buffer: &'a mut [u8],
) -> DecodeResult<'a> {
    super::ascii_ext_decode_to_str(&DECODE_TABLE, input, out_buffer)
}

pub fn encode_from_str<'a>(
    input: &str,
    out_buffer: &'a mut [u8],
) -> EncodeResult<'a> {
    super::ascii_ext_encode_from_str(&ENCODE_TABLE, input, out_buffer)
}

const DECODE_TABLE: [char; 128] = [
    '\u{20AC}','�','\u{201A}','�','\u{201E}','\u{2026}','\u{2020}','\u{2021}',
    '�','\u{2030}','�','\u{2039}','�','\u{00A8}','\u{02C7}','\u{00B8}',
    '�','\u{2018}','\u{2019}','\u{201C}','\u{201D}','\u{2022}','\u{2013}','\u{2014}',
    '�','\u{2122}','�','\u{203A}','�','\u{00AF}','\u{02DB}','�',
    '\u{00A0}','�','\u{00A2}','\u{00A3}','\u{00A4}','�','\u{00A6}','\u{00A7}',
    '\u{00D8}','\u{00A9}','\u{0156}','\u{00AB}','\u{00AC}','\u{00AD}','\u{00AE}','\u{00C6}',
    '\u{00B0}','\u{00B1}','\u{00B2}','\u{00B3}','\u{00B4}','\u{00B5}','\u{00B6}','\u{00B7}',
    '\u{00F8}','\u{00B9}','\u{0157}','\u{00BB}','\u{00BC}','\u{00BD}','\u{00BE}','\u{00E6}',
    '\u{0104}','\u{012E}','\u{0100}','\u{0106}','\u{00C4}','\u{00C5}','\u{0118}','\u{0112}',
    '\u{010C}','\u{00C9}','\u{0179}','\u{0116}','\u{0122}','\u{0136}','\u{012A}','\u{013B}',
    '\u{0160}','\u{0143}','\u{0145}','\u{00D3}','\u{014C}','\u{00D5}','\u{00D6}','\u{00D7}',
    '\u{0172}','\u{0141}','\u{015A}','\u{016A}','\u{00DC}','\u{017B}','\u{017D}','\u{00DF}',
    '\u{0105}','\u{012F}','\u{0101}','\u{0107}','\u{00E4}','\u{00E5}','\u{0119}','\u{0113}',
    '\u{010D}','\u{00E9}','\u{017A}','\u{0117}','\u{0123}','\u{0137}','\u{012B}','\u{013C}',
    '\u{0161}','\u{0144}','\u{0146}','\u{00F3}','\u{014D}','\u{00F5}','\u{00F6}','\u{00F7}',
    '\u{0173}','\u{0142}','\u{015B}','\u{016B}','\u{00FC}','\u{017C}','\u{017E}','\u{02D9}',
];

const ENCODE_TABLE: [(char, u8); 116] = [
    ('\u{00A0}', 0xA0), ('\u{00A2}', 0xA2), ('\u{00A3}', 0xA3), ('\u{00A4}', 0xA4), 
    ('\u{00A6}', 0xA6), ('\u{00A7}', 0xA7), ('\u{00A8}', 0x8D), ('\u{00A9}', 0xA9), 
    ('\u{00AB}', 0xAB), ('\u{00AC}', 0xAC), ('\u{00AD}', 0xAD), ('\u{00AE}', 0xAE), 
    ('\u{00AF}', 0x9D), ('\u{00B0}', 0xB0), ('\u{00B1}', 0xB1), ('\u{00B2}', 0xB2), 
    ('\u{00B3}', 0xB3), ('\u{00B4}', 0xB4), ('\u{00B5}', 0xB5), ('\u{00B6}', 0xB6), 
    ('\u{00B7}', 0xB7), ('\u{00B8}', 0x8F), ('\u{00B9}', 0xB9), ('\u{00BB}', 0xBB), 
    ('\u{00BC}', 0xBC), ('\u{00BD}', 0xBD), ('\u{00BE}', 0xBE), ('\u{00C4}', 0xC4), 
    ('\u{00C5}', 0xC5), ('\u{00C6}', 0xAF), ('\u{00C9}', 0xC9), ('\u{00D3}', 0xD3), 
    ('\u{00D5}', 0xD5), ('\u{00D6}', 0xD6), ('\u{00D7}', 0xD7), ('\u{00D8}', 0xA8), 
    ('\u{00DC}', 0xDC), ('\u{00DF}', 0xDF), ('\u{00E4}', 0xE4), ('\u{00E5}', 0xE5), 
    ('\u{00E6}', 0xBF), ('\u{00E9}', 0xE9), ('\u{00F3}', 0xF3), ('\u{00F5}', 0xF5), 
    ('\u{00F6}', 0xF6), ('\u{00F7}', 0xF7), ('\u{00F8}', 0xB8), ('\u{00FC}', 0xFC), 
    ('\u{0100}', 0xC2), ('\u{0101}', 0xE2), ('\u{0104}', 0xC0), ('\u{0105}', 0xE0), 
    ('\u{0106}', 0xC3), ('\u{0107}', 0xE3), ('\u{010C}', 0xC8), ('\u{010D}', 0xE8), 
    ('\u{0112}', 0xC7), ('\u{0113}', 0xE7), ('\u{0116}', 0xCB), ('\u{0117}', 0xEB), 
    ('\u{0118}', 0xC6), ('\u{0119}', 0xE6), ('\u{0122}', 0xCC), ('\u{0123}', 0xEC), 
    ('\u{012A}', 0xCE), ('\u{012B}', 0xEE), ('\u{012E}', 0xC1), ('\u{012F}', 0xE1), 
    ('\u{0136}', 0xCD), ('\u{0137}', 0xED), ('\u{013B}', 0xCF), ('\u{013C}', 0xEF), 
    ('\u{0141}', 0xD9), ('\u{0142}', 0xF9), ('\u{0143}', 0xD1), ('\u{0144}', 0xF1), 
    ('\u{0145}', 0xD2), ('\u{0146}', 0xF2), ('\u{014C}', 0xD4), ('\u{014D}', 0xF4), 
    ('\u{0156}', 0xAA), ('\u{0157}', 0xBA), ('\u{015A}', 0xDA), ('\u{015B}', 0xFA), 
    ('\u{0160}', 0xD0), ('\u{0161}', 0xF0), ('\u{016A}', 0xDB), ('\u{016B}', 0xFB), 
    ('\u{0172}', 0xD8), ('\u{0173}', 0xF8), ('\u{0179}', 0xCA), ('\u{017A}', 0xEA), 
    ('\u{017B}', 0xDD), ('\u{017C}', 0xFD), ('\u{017D}', 0xDE), ('\u{017E}', 0xFE), 
    ('\u{02C7}', 0x8E), ('\u{02D9}', 0xFF), ('\u{02DB}', 0x9E), ('\u{2013}', 0x96), 
    ('\u{2014}', 0x97), ('\u{2018}', 0x91), ('\u{2019}', 0x92), ('\u{201A}', 0x82), 
    ('\u{201C}', 0x93), ('\u{201D}', 0x94), ('\u{201E}', 0x84), ('\u{2020}', 0x86), 
    ('\u{2021}', 0x87), ('\u{2022}', 0x95), ('\u{2026}', 0x85), ('\u{2030}', 0x89), 
    ('\u{2039}', 0x8B), ('\u{203A}', 0x9B), ('\u{20AC}', 0x80), ('\u{2122}', 0x99), 
];
"#

/-- encoding_tables/single_byte/ascii_ext/windows-cp1258.txt:1-274 -/
noncomputable def windows_1258_mapping : List Text := lines! r#"#
#    Name:     cp1258 to Unicode table
#    Unicode version: 2.0
#    Table version: 2.01
#    Table format:  Format A
#    Date:          04/15/98
#
#    Contact:       Shawn.Steele@microsoft.com
#
#    General notes: none
#
#    Format: Three tab-separated columns
#        Column #1 is the cp1258 code (in hex)
#        Column #2 is the Unicode (in hex as 0xXXXX)
#        Column #3 is the Unicode name (follows a comment sign, '#')
#
#    The entries are in cp1258 order
#
0x00	0x0000	#NULL
0x01	0x0001	#START OF HEADING
0x02	0x0002	#START OF TEXT
0x03	0x0003	#END OF TEXT
0x04	0x0004	#END OF TRANSMISSION
0x05	0x0005	#ENQUIRY
0x06	0x0006	#ACKNOWLEDGE
0x07	0x0007	#BELL
0x08	0x0008	#BACKSPACE
0x09	0x0009	#HORIZONTAL TABULATION
0x0A	0x000A	#LINE FEED
0x0B	0x000B	#VERTICAL TABULATION
0x0C	0x000C	#FORM FEED
0x0D	0x000D	#CARRIAGE RETURN
0x0E	0x000E	#SHIFT OUT
0x0F	0x000F	#SHIFT IN
0x10	0x0010	#DATA LINK ESCAPE
0x11	0x0011	#DEVICE CONTROL ONE
0x12	0x0012	#DEVICE CONTROL TWO
0x13	0x0013	#DEVICE CONTROL THREE
0x14	0x0014	#DEVICE CONTROL FOUR
0x15	0x0015	#NEGATIVE ACKNOWLEDGE
0x16	0x0016	#SYNCHRONOUS IDLE
0x17	0x0017	#END OF TRANSMISSION BLOCK
0x18	0x0018	#CANCEL
0x19	0x0019	#END OF MEDIUM
0x1A	0x001A	#SUBSTITUTE
0x1B	0x001B	#ESCAPE
0x1C	0x001C	#FILE SEPARATOR
0x1D	0x001D	#GROUP SEPARATOR
0x1E	0x001E	#RECORD SEPARATOR
0x1F	0x001F	#UNIT SEPARATOR
0x20	0x0020	#SPACE
0x21	0x0021	#EXCLAMATION MARK
0x22	0x0022	#QUOTATION MARK
0x23	0x0023	#NUMBER SIGN
0x24	0x0024	#DOLLAR SIGN
0x25	0x0025	#PERCENT SIGN
0x26	0x0026	#AMPERSAND
0x27	0x0027	#APOSTROPHE
0x28	0x0028	#LEFT PARENTHESIS
0x29	0x0029	#RIGHT PARENTHESIS
0x2A	0x002A	#ASTERISK
0x2B	0x002B	#PLUS SIGN
0x2C	0x002C	#COMMA
0x2D	0x002D	#HYPHEN-MINUS
0x2E	0x002E	#FULL STOP
0x2F	0x002F	#SOLIDUS
0x30	0x0030	#DIGIT ZERO
0x31	0x0031	#DIGIT ONE
0x32	0x0032	#DIGIT TWO
0x33	0x0033	#DIGIT THREE
0x34	0x0034	#DIGIT FOUR
0x35	0x0035	#DIGIT FIVE
0x36	0x0036	#DIGIT SIX
0x37	0x0037	#DIGIT SEVEN
0x38	0x0038	#DIGIT EIGHT
0x39	0x0039	#DIGIT NINE
0x3A	0x003A	#COLON
0x3B	0x003B	#SEMICOLON
0x3C	0x003C	#LESS-THAN SIGN
0x3D	0x003D	#EQUALS SIGN
0x3E	0x003E	#GREATER-THAN SIGN
0x3F	0x003F	#QUESTION MARK
0x40	0x0040	#COMMERCIAL AT
0x41	0x0041	#LATIN CAPITAL LETTER A
0x42	0x0042	#LATIN CAPITAL LETTER B
0x43	0x0043	#LATIN CAPITAL LETTER C
0x44	0x0044	#LATIN CAPITAL LETTER D
0x45	0x0045	#LATIN CAPITAL LETTER E
0x46	0x0046	#LATIN CAPITAL LETTER F
0x47	0x0047	#LATIN CAPITAL LETTER G
0x48	0x0048	#LATIN CAPITAL LETTER H
0x49	0x0049	#LATIN CAPITAL LETTER I
0x4A	0x004A	#LATIN CAPITAL LETTER J
0x4B	0x004B	#LATIN CAPITAL LETTER K
0x4C	0x004C	#LATIN CAPITAL LETTER L
0x4D	0x004D	#LATIN CAPITAL LETTER M
0x4E	0x004E	#LATIN CAPITAL LETTER N
0x4F	0x004F	#LATIN CAPITAL LETTER O
0x50	0x0050	#LATIN CAPITAL LETTER P
0x51	0x0051	#LATIN CAPITAL LETTER Q
0x52	0x0052	#LATIN CAPITAL LETTER R
0x53	0x0053	#LATIN CAPITAL LETTER S
0x54	0x0054	#LATIN CAPITAL LETTER T
0x55	0x0055	#LATIN CAPITAL LETTER U
0x56	0x0056	#LATIN CAPITAL LETTER V
0x57	0x0057	#LATIN CAPITAL LETTER W
0x58	0x0058	#LATIN CAPITAL LETTER X
0x59	0x0059	#LATIN CAPITAL LETTER Y
0x5A	0x005A	#LATIN CAPITAL LETTER Z
0x5B	0x005B	#LEFT SQUARE BRACKET
0x5C	0x005C	#REVERSE SOLIDUS
0x5D	0x005D	#RIGHT SQUARE BRACKET
0x5E	0x005E	#CIRCUMFLEX ACCENT
0x5F	0x005F	#LOW LINE
0x60	0x0060	#GRAVE ACCENT
0x61	0x0061	#LATIN SMALL LETTER A
0x62	0x0062	#LATIN SMALL LETTER B
0x63	0x0063	#LATIN SMALL LETTER C
0x64	0x0064	#LATIN SMALL LETTER D
0x65	0x0065	#LATIN SMALL LETTER E
0x66	0x0066	#LATIN SMALL LETTER F
0x67	0x0067	#LATIN SMALL LETTER G
0x68	0x0068	#LATIN SMALL LETTER H
0x69	0x0069	#LATIN SMALL LETTER I
0x6A	0x006A	#LATIN SMALL LETTER J
0x6B	0x006B	#LATIN SMALL LETTER K
0x6C	0x006C	#LATIN SMALL LETTER L
0x6D	0x006D	#LATIN SMALL LETTER M
0x6E	0x006E	#LATIN SMALL LETTER N
0x6F	0x006F	#LATIN SMALL LETTER O
0x70	0x0070	#LATIN SMALL LETTER P
0x71	0x0071	#LATIN SMALL LETTER Q
0x72	0x0072	#LATIN SMALL LETTER R
0x73	0x0073	#LATIN SMALL LETTER S
0x74	0x0074	#LATIN SMALL LETTER T
0x75	0x0075	#LATIN SMALL LETTER U
0x76	0x0076	#LATIN SMALL LETTER V
0x77	0x0077	#LATIN SMALL LETTER W
0x78	0x0078	#LATIN SMALL LETTER X
0x79	0x0079	#LATIN SMALL LETTER Y
0x7A	0x007A	#LATIN SMALL LETTER Z
0x7B	0x007B	#LEFT CURLY BRACKET
0x7C	0x007C	#VERTICAL LINE
0x7D	0x007D	#RIGHT CURLY BRACKET
0x7E	0x007E	#TILDE
0x7F	0x007F	#DELETE
0x80	0x20AC	#EURO SIGN
0x81	      	#UNDEFINED
0x82	0x201A	#SINGLE LOW-9 QUOTATION MARK
0x83	0x0192	#LATIN SMALL LETTER F WITH HOOK
0x84	0x201E	#DOUBLE LOW-9 QUOTATION MARK
0x85	0x2026	#HORIZONTAL ELLIPSIS
0x86	0x2020	#DAGGER
0x87	0x2021	#DOUBLE DAGGER
0x88	0x02C6	#MODIFIER LETTER CIRCUMFLEX ACCENT
0x89	0x2030	#PER MILLE SIGN
0x8A	      	#UNDEFINED
0x8B	0x2039	#SINGLE LEFT-POINTING ANGLE QUOTATION MARK
0x8C	0x0152	#LATIN CAPITAL LIGATURE OE
0x8D	      	#UNDEFINED
0x8E	      	#UNDEFINED
0x8F	      	#UNDEFINED
0x90	      	#UNDEFINED
0x91	0x2018	#LEFT SINGLE QUOTATION MARK
0x92	0x2019	#RIGHT SINGLE QUOTATION MARK
0x93	0x201C	#LEFT DOUBLE QUOTATION MARK
0x94	0x201D	#RIGHT DOUBLE QUOTATION MARK
0x95	0x2022	#BULLET
0x96	0x2013	#EN DASH
0x97	0x2014	#EM DASH
0x98	0x02DC	#SMALL TILDE
0x99	0x2122	#TRADE MARK SIGN
0x9A	      	#UNDEFINED
0x9B	0x203A	#SINGLE RIGHT-POINTING ANGLE QUOTATION MARK
0x9C	0x0153	#LATIN SMALL LIGATURE OE
0x9D	      	#UNDEFINED
0x9E	      	#UNDEFINED
0x9F	0x0178	#LATIN CAPITAL LETTER Y WITH DIAERESIS
0xA0	0x00A0	#NO-BREAK SPACE
0xA1	0x00A1	#INVERTED EXCLAMATION MARK
0xA2	0x00A2	#CENT SIGN
0xA3	0x00A3	#POUND SIGN
0xA4	0x00A4	#CURRENCY SIGN
0xA5	0x00A5	#YEN SIGN
0xA6	0x00A6	#BROKEN BAR
0xA7	0x00A7	#SECTION SIGN
0xA8	0x00A8	#DIAERESIS
0xA9	0x00A9	#COPYRIGHT SIGN
0xAA	0x00AA	#FEMININE ORDINAL INDICATOR
0xAB	0x00AB	#LEFT-POINTING DOUBLE ANGLE QUOTATION MARK
0xAC	0x00AC	#NOT SIGN
0xAD	0x00AD	#SOFT HYPHEN
0xAE	0x00AE	#REGISTERED SIGN
0xAF	0x00AF	#MACRON
0xB0	0x00B0	#DEGREE SIGN
0xB1	0x00B1	#PLUS-MINUS SIGN
0xB2	0x00B2	#SUPERSCRIPT TWO
0xB3	0x00B3	#SUPERSCRIPT THREE
0xB4	0x00B4	#ACUTE ACCENT
0xB5	0x00B5	#MICRO SIGN
0xB6	0x00B6	#PILCROW SIGN
0xB7	0x00B7	#MIDDLE DOT
0xB8	0x00B8	#CEDILLA
0xB9	0x00B9	#SUPERSCRIPT ONE
0xBA	0x00BA	#MASCULINE ORDINAL INDICATOR
0xBB	0x00BB	#RIGHT-POINTING DOUBLE ANGLE QUOTATION MARK
0xBC	0x00BC	#VULGAR FRACTION ONE QUARTER
0xBD	0x00BD	#VULGAR FRACTION ONE HALF
0xBE	0x00BE	#VULGAR FRACTION THREE QUARTERS
0xBF	0x00BF	#INVERTED QUESTION MARK
0xC0	0x00C0	#LATIN CAPITAL LETTER A WITH GRAVE
0xC1	0x00C1	#LATIN CAPITAL LETTER A WITH ACUTE
0xC2	0x00C2	#LATIN CAPITAL LETTER A WITH CIRCUMFLEX
0xC3	0x0102	#LATIN CAPITAL LETTER A WITH BREVE
0xC4	0x00C4	#LATIN CAPITAL LETTER A WITH DIAERESIS
0xC5	0x00C5	#LATIN CAPITAL LETTER A WITH RING ABOVE
0xC6	0x00C6	#LATIN CAPITAL LETTER AE
0xC7	0x00C7	#LATIN CAPITAL LETTER C WITH CEDILLA
0xC8	0x00C8	#LATIN CAPITAL LETTER E WITH GRAVE
0xC9	0x00C9	#LATIN CAPITAL LETTER E WITH ACUTE
0xCA	0x00CA	#LATIN CAPITAL LETTER E WITH CIRCUMFLEX
0xCB	0x00CB	#LATIN CAPITAL LETTER E WITH DIAERESIS
0xCC	0x0300	#COMBINING GRAVE ACCENT
0xCD	0x00CD	#LATIN CAPITAL LETTER I WITH ACUTE
0xCE	0x00CE	#LATIN CAPITAL LETTER I WITH CIRCUMFLEX
0xCF	0x00CF	#LATIN CAPITAL LETTER I WITH DIAERESIS
0xD0	0x0110	#LATIN CAPITAL LETTER D WITH STROKE
0xD1	0x00D1	#LATIN CAPITAL LETTER N WITH TILDE
0xD2	0x0309	#COMBINING HOOK ABOVE
0xD3	0x00D3	#LATIN CAPITAL LETTER O WITH ACUTE
0xD4	0x00D4	#LATIN CAPITAL LETTER O WITH CIRCUMFLEX
0xD5	0x01A0	#LATIN CAPITAL LETTER O WITH HORN
0xD6	0x00D6	#LATIN CAPITAL LETTER O WITH DIAERESIS
0xD7	0x00D7	#MULTIPLICATION SIGN
0xD8	0x00D8	#LATIN CAPITAL LETTER O WITH STROKE
0xD9	0x00D9	#LATIN CAPITAL LETTER U WITH GRAVE
0xDA	0x00DA	#LATIN CAPITAL LETTER U WITH ACUTE
0xDB	0x00DB	#LATIN CAPITAL LETTER U WITH CIRCUMFLEX
0xDC	0x00DC	#LATIN CAPITAL LETTER U WITH DIAERESIS
0xDD	0x01AF	#LATIN CAPITAL LETTER U WITH HORN
0xDE	0x0303	#COMBINING TILDE
0xDF	0x00DF	#LATIN SMALL LETTER SHARP S
0xE0	0x00E0	#LATIN SMALL LETTER A WITH GRAVE
0xE1	0x00E1	#LATIN SMALL LETTER A WITH ACUTE
0xE2	0x00E2	#LATIN SMALL LETTER A WITH CIRCUMFLEX
0xE3	0x0103	#LATIN SMALL LETTER A WITH BREVE
0xE4	0x00E4	#LATIN SMALL LETTER A WITH DIAERESIS
0xE5	0x00E5	#LATIN SMALL LETTER A WITH RING ABOVE
0xE6	0x00E6	#LATIN SMALL LETTER AE
0xE7	0x00E7	#LATIN SMALL LETTER C WITH CEDILLA
0xE8	0x00E8	#LATIN SMALL LETTER E WITH GRAVE
0xE9	0x00E9	#LATIN SMALL LETTER E WITH ACUTE
0xEA	0x00EA	#LATIN SMALL LETTER E WITH CIRCUMFLEX
0xEB	0x00EB	#LATIN SMALL LETTER E WITH DIAERESIS
0xEC	0x0301	#COMBINING ACUTE ACCENT
0xED	0x00ED	#LATIN SMALL LETTER I WITH ACUTE
0xEE	0x00EE	#LATIN SMALL LETTER I WITH CIRCUMFLEX
0xEF	0x00EF	#LATIN SMALL LETTER I WITH DIAERESIS
0xF0	0x0111	#LATIN SMALL LETTER D WITH STROKE
0xF1	0x00F1	#LATIN SMALL LETTER N WITH TILDE
0xF2	0x0323	#COMBINING DOT BELOW
0xF3	0x00F3	#LATIN SMALL LETTER O WITH ACUTE
0xF4	0x00F4	#LATIN SMALL LETTER O WITH CIRCUMFLEX
0xF5	0x01A1	#LATIN SMALL LETTER O WITH HORN
0xF6	0x00F6	#LATIN SMALL LETTER O WITH DIAERESIS
0xF7	0x00F7	#DIVISION SIGN
0xF8	0x00F8	#LATIN SMALL LETTER O WITH STROKE
0xF9	0x00F9	#LATIN SMALL LETTER U WITH GRAVE
0xFA	0x00FA	#LATIN SMALL LETTER U WITH ACUTE
0xFB	0x00FB	#LATIN SMALL LETTER U WITH CIRCUMFLEX
0xFC	0x00FC	#LATIN SMALL LETTER U WITH DIAERESIS
0xFD	0x01B0	#LATIN SMALL LETTER U WITH HORN
0xFE	0x20AB	#DONG SIGN
0xFF	0x00FF	#LATIN SMALL LETTER Y WITH DIAERESIS
"#

/-- src/generated/single_byte/windows-cp1258_tables.rs.inc:1-70 -/
noncomputable def windows_1258_source : List Text := lines! r#"// This file is auto-generated.  Please see `encoding_tables/single_byte/`
// from the root directory for the files that generate this.

use {DecodeResult, EncodeResult};

pub fn decode_to_str<'a>(
    input: &[u8],
    out_buffer: &'a mut [u8],
) -> DecodeResult<'a> {
    super::ascii_ext_decode_to_str(&DECODE_TABLE, input, out_buffer)
}

pub fn encode_from_str<'a>(
    input: &str,
    out_buffer: &'a mut [u8],
) -> EncodeResult<'a> {
    super::ascii_ext_encode_from_str(&ENCODE_TABLE, input, out_buffer)
}

const DECODE_TABLE: [char; 128] = [
    '\u{20AC}','�','\u{201A}','\u{0192}','\u{201E}','\u{2026}','\u{2020}','\u{2021}',
    '\u{02C6}','\u{2030}','�','\u{2039}','\u{0152}','�','�','�',
    '�','\u{2018}','\u{2019}','\u{201C}','\u{201D}','\u{2022}','\u{2013}','\u{2014}',
    '\u{02DC}','\u{2122}','�','\u{203A}','\u{0153}','�','�','\u{0178}',
    '\u{00A0}','\u{00A1}','\u{00A2}','\u{00A3}','\u{00A4}','\u{00A5}','\u{00A6}','\u{00A7}',
    '\u{00A8}','\u{00A9}','\u{00AA}','\u{00AB}','\u{00AC}','\u{00AD}','\u{00AE}','\u{00AF}',
    '\u{00B0}','\u{00B1}','\u{00B2}','\u{00B3}','\u{00B4}','\u{00B5}','\u{00B6}','\u{00B7}',
    '\u{00B8}','\u{00B9}','\u{00BA}','\u{00BB}','\u{00BC}','\u{00BD}','\u{00BE}','\u{00BF}',
    '\u{00C0}','\u{00C1}','\u{00C2}','\u{0102}','\u{00C4}','\u{00C5}','\u{00C6}','\u{00C7}',
    '\u{00C8}','\u{00C9}','\u{00CA}','\u{00CB}','\u{0300}','\u{00CD}','\u{00CE}','\u{00CF}',
    '\u{0110}','\u{00D1}','\u{0309}','\u{00D3}','\u{00D4}','\u{01A0}','\u{00D6}','\u{00D7}',
    '\u{00D8}','\u{00D9}','\u{00DA}','\u{00DB}','\u{00DC}','\u{01AF}','\u{0303}','\u{00DF}',
    '\u{00E0}','\u{00E1}','\u{00E2}','\u{0103}','\u{00E4}','\u{00E5}','\u{00E6}','\u{00E7}',
    '\u{00E8}','\u{00E9}','\u{00EA}','\u{00EB}','\u{0301}','\u{00ED}','\u{00EE}','\u{00EF}',
    '\u{0111}','\u{00F1}','\u{0323}','\u{00F3}','\u{00F4}','\u{01A1}','\u{00F6}','\u{00F7}',
    '\u{00F8}','\u{00F9}','\u{00FA}','\u{00FB}','\u{00FC}','\u{01B0}','\u{20AB}','\u{00FF}',
];

const ENCODE_TABLE: [(char, u8); 119] = [
    ('\u{00A0}', 0xA0), ('\u{00A1}', 0xA1), ('\u{00A2}', 0xA2), ('\u{00A3}', 0xA3), 
    ('\u{00A4}', 0xA4), ('\u{00A5}', 0xA5), ('\u{00A6}', 0xA6), ('\u{00A7}', 0xA7), 
    ('\u{00A8}', 0xA8), ('\u{00A9}', 0xA9), ('\u{00AA}', 0xAA), ('\u{00AB}', 0xAB), 
    ('\u{00AC}', 0xAC), ('\u{00AD}', 0xAD), ('\u{00AE}', 0xAE), ('\u{00AF}', 0xAF), 
    ('\u{00B0}', 0xB0), ('\u{00B1}', 0xB1), ('\u{00B2}', 0xB2), ('\u{00B3}', 0xB3), 
    ('\u{00B4}', 0xB4), ('\u{00B5}', 0xB5), ('\u{00B6}', 0xB6), ('\u{00B7}', 0xB7), 
    ('\u{00B8}', 0xB8), ('\u{00B9}', 0xB9), ('\u{00BA}', 0xBA), ('\u{00BB}', 0xBB), 
    ('\u{00BC}', 0xBC), ('\u{00BD}', 0xBD), ('\u{00BE}', 0xBE), ('\u{00BF}', 0xBF), 
    ('\u{00C0}', 0xC0), ('\u{00C1}', 0xC1), ('\u{00C2}', 0xC2), ('\u{00C4}', 0xC4), 
    ('\u{00C5}', 0xC5), ('\u{00C6}', 0xC6), ('\u{00C7}', 0xC7), ('\u{00C8}', 0xC8), 
    ('\u{00C9}', 0xC9), ('\u{00CA}', 0xCA), ('\u{00CB}', 0xCB), ('\u{00CD}', 0xCD), 
    ('\u{00CE}', 0xCE), ('\u{00CF}', 0xCF), ('\u{00D1}', 0xD1), ('\u{00D3}', 0xD3), 
    ('\u{00D4}', 0xD4), ('\u{00D6}', 0xD6), ('\u{00D7}', 0xD7), ('\u{00D8}', 0xD8), 
    ('\u{00D9}', 0xD9), ('\u{00DA}', 0xDA), ('\u{00DB}', 0xDB), ('\u{00DC}', 0xDC), 
    ('\u{00DF}', 0xDF), ('\u{00E0}', 0xE0), ('\u{00E1}', 0xE1), ('\u{00E2}', 0xE2), 
    ('\u{00E4}', 0xE4), ('\u{00E5}', 0xE5), ('\u{00E6}', 0xE6), ('\u{00E7}', 0xE7), 
    ('\u{00E8}', 0xE8), ('\u{00E9}', 0xE9), ('\u{00EA}', 0xEA), ('\u{00EB}', 0xEB), 
    ('\u{00ED}', 0xED), ('\u{00EE}', 0xEE), ('\u{00EF}', 0xEF), ('\u{00F1}', 0xF1), 
    ('\u{00F3}', 0xF3), ('\u{00F4}', 0xF4), ('\u{00F6}', 0xF6), ('\u{00F7}', 0xF7), 
    ('\u{00F8}', 0xF8), ('\u{00F9}', 0xF9), ('\u{00FA}', 0xFA), ('\u{00FB}', 0xFB), 
    ('\u{00FC}', 0xFC), ('\u{00FF}', 0xFF), ('\u{0102}', 0xC3), ('\u{0103}', 0xE3), 
    ('\u{0110}', 0xD0), ('\u{0111}', 0xF0), ('\u{0152}', 0x8C), ('\u{0153}', 0x9C), 
    ('\u{0178}', 0x9F), ('\u{0192}', 0x83), ('\u{01A0}', 0xD5), ('\u{01A1}', 0xF5), 
    ('\u{01AF}', 0xDD), ('\u{01B0}', 0xFD), ('\u{02C6}', 0x88), ('\u{02DC}', 0x98), 
    ('\u{0300}', 0xCC), ('\u{0301}', 0xEC), ('\u{0303}', 0xDE), ('\u{0309}', 0xD2), 
    ('\u{0323}', 0xF2), ('\u{2013}', 0x96), ('\u{2014}', 0x97), ('\u{2018}', 0x91), 
    ('\u{2019}', 0x92), ('\u{201A}', 0x82), ('\u{201C}', 0x93), ('\u{201D}', 0x94), 
    ('\u{201E}', 0x84), ('\u{2020}', 0x86), ('\u{2021}', 0x87), ('\u{2022}', 0x95), 
    ('\u{2026}', 0x85), ('\u{2030}', 0x89), ('\u{2039}', 0x8B), ('\u{203A}', 0x9B), 
    ('\u{20AB}', 0xFE), ('\u{20AC}', 0x80), ('\u{2122}', 0x99), 
];
"#

end Verif.Files
