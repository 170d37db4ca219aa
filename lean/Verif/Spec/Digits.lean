/-! # Specification: the decimal digits of Unicode -/

namespace Knx.Spec

/-- The scripts (other than ASCII) that have decimal digits in Unicode 14.0, and the number of the digit zero of each; the
digits one to nine follow it. -/
def scripts : List (String × Nat) :=
  [("ARABIC-INDIC", 0x0660), ("EXTENDED ARABIC-INDIC", 0x06F0), ("NKO", 0x07C0), ("DEVANAGARI", 0x0966),
   ("BENGALI", 0x09E6), ("GURMUKHI", 0x0A66), ("GUJARATI", 0x0AE6), ("ORIYA", 0x0B66), ("TAMIL", 0x0BE6),
   ("TELUGU", 0x0C66), ("KANNADA", 0x0CE6), ("MALAYALAM", 0x0D66), ("SINHALA LITH", 0x0DE6), ("THAI", 0x0E50),
   ("LAO", 0x0ED0), ("TIBETAN", 0x0F20), ("MYANMAR", 0x1040), ("MYANMAR SHAN", 0x1090), ("KHMER", 0x17E0),
   ("MONGOLIAN", 0x1810), ("LIMBU", 0x1946), ("NEW TAI LUE", 0x19D0), ("TAI THAM HORA", 0x1A80),
   ("TAI THAM THAM", 0x1A90), ("BALINESE", 0x1B50), ("SUNDANESE", 0x1BB0), ("LEPCHA", 0x1C40), ("OL CHIKI", 0x1C50),
   ("VAI", 0xA620), ("SAURASHTRA", 0xA8D0), ("KAYAH LI", 0xA900), ("JAVANESE", 0xA9D0), ("MYANMAR TAI LAING", 0xA9F0),
   ("CHAM", 0xAA50), ("MEETEI MAYEK", 0xABF0), ("FULLWIDTH", 0xFF10), ("OSMANYA", 0x104A0),
   ("HANIFI ROHINGYA", 0x10D30), ("BRAHMI", 0x11066), ("SORA SOMPENG", 0x110F0), ("CHAKMA", 0x11136),
   ("SHARADA", 0x111D0), ("KHUDAWADI", 0x112F0), ("NEWA", 0x11450), ("TIRHUTA", 0x114D0), ("MODI", 0x11650),
   ("TAKRI", 0x116C0), ("AHOM", 0x11730), ("WARANG CITI", 0x118E0), ("DIVES AKURU", 0x11950), ("BHAIKSUKI", 0x11C50),
   ("MASARAM GONDI", 0x11D50), ("GUNJALA GONDI", 0x11DA0), ("MRO", 0x16A60), ("TANGSA", 0x16AC0),
   ("PAHAWH HMONG", 0x16B50), ("MATHEMATICAL BOLD", 0x1D7CE), ("MATHEMATICAL DOUBLE-STRUCK", 0x1D7D8),
   ("MATHEMATICAL SANS-SERIF", 0x1D7E2), ("MATHEMATICAL SANS-SERIF BOLD", 0x1D7EC),
   ("MATHEMATICAL MONOSPACE", 0x1D7F6), ("NYIAKENG PUACHUE HMONG", 0x1E140), ("WANCHO", 0x1E2F0), ("ADLAM", 0x1E950),
   ("SEGMENTED", 0x1FBF0)]

/-- The digits zero of these scripts. -/
def digitZeros : List Nat := scripts.map (·.2)

end Knx.Spec
