import Verif.Model.Prelude

/-! Data from the Unicode character database, independent of the program. -/

namespace Jargon

/-- The pairs (upper-case letter, its simple lower-case mapping) of Unicode of which both members
occur in the folding table of filters/ascii. -/
def casePairs : List (Rune × Rune) := [
  (0x00C0, 0xE0), (0x00C1, 0xE1), (0x00C2, 0xE2), (0x00C3, 0xE3), (0x00C4, 0xE4), (0x00C5, 0xE5),
  (0x00C6, 0xE6), (0x00C7, 0xE7), (0x00C8, 0xE8), (0x00C9, 0xE9), (0x00CA, 0xEA), (0x00CB, 0xEB),
  (0x00CC, 0xEC), (0x00CD, 0xED), (0x00CE, 0xEE), (0x00CF, 0xEF), (0x00D0, 0xF0), (0x00D1, 0xF1),
  (0x00D2, 0xF2), (0x00D3, 0xF3), (0x00D4, 0xF4), (0x00D5, 0xF5), (0x00D6, 0xF6), (0x00D8, 0xF8),
  (0x00D9, 0xF9), (0x00DA, 0xFA), (0x00DB, 0xFB), (0x00DC, 0xFC), (0x00DD, 0xFD), (0x00DE, 0xFE),
  (0x0100, 0x101), (0x0102, 0x103), (0x0104, 0x105), (0x0106, 0x107), (0x0108, 0x109),
  (0x010A, 0x10B), (0x010C, 0x10D), (0x010E, 0x10F), (0x0110, 0x111), (0x0112, 0x113),
  (0x0114, 0x115), (0x0116, 0x117), (0x0118, 0x119), (0x011A, 0x11B), (0x011C, 0x11D),
  (0x011E, 0x11F), (0x0120, 0x121), (0x0122, 0x123), (0x0124, 0x125), (0x0126, 0x127),
  (0x0128, 0x129), (0x012A, 0x12B), (0x012C, 0x12D), (0x012E, 0x12F), (0x0132, 0x133),
  (0x0134, 0x135), (0x0136, 0x137), (0x0139, 0x13A), (0x013B, 0x13C), (0x013D, 0x13E),
  (0x013F, 0x140), (0x0141, 0x142), (0x0143, 0x144), (0x0145, 0x146), (0x0147, 0x148),
  (0x014A, 0x14B), (0x014C, 0x14D), (0x014E, 0x14F), (0x0150, 0x151), (0x0152, 0x153),
  (0x0154, 0x155), (0x0156, 0x157), (0x0158, 0x159), (0x015A, 0x15B), (0x015C, 0x15D),
  (0x015E, 0x15F), (0x0160, 0x161), (0x0162, 0x163), (0x0164, 0x165), (0x0166, 0x167),
  (0x0168, 0x169), (0x016A, 0x16B), (0x016C, 0x16D), (0x016E, 0x16F), (0x0170, 0x171),
  (0x0172, 0x173), (0x0174, 0x175), (0x0176, 0x177), (0x0178, 0xFF), (0x0179, 0x17A),
  (0x017B, 0x17C), (0x017D, 0x17E), (0x0181, 0x253), (0x0182, 0x183), (0x0186, 0x254),
  (0x0187, 0x188), (0x0189, 0x256), (0x018A, 0x257), (0x018B, 0x18C), (0x018E, 0x1DD),
  (0x018F, 0x259), (0x0190, 0x25B), (0x0191, 0x192), (0x0193, 0x260), (0x0197, 0x268),
  (0x0198, 0x199), (0x019C, 0x26F), (0x019D, 0x272), (0x019F, 0x275), (0x01A0, 0x1A1),
  (0x01A4, 0x1A5), (0x01AC, 0x1AD), (0x01AE, 0x288), (0x01AF, 0x1B0), (0x01B2, 0x28B),
  (0x01B3, 0x1B4), (0x01B5, 0x1B6), (0x01C4, 0x1C6), (0x01C5, 0x1C6), (0x01C7, 0x1C9),
  (0x01C8, 0x1C9), (0x01CA, 0x1CC), (0x01CB, 0x1CC), (0x01CD, 0x1CE), (0x01CF, 0x1D0),
  (0x01D1, 0x1D2), (0x01D3, 0x1D4), (0x01D5, 0x1D6), (0x01D7, 0x1D8), (0x01D9, 0x1DA),
  (0x01DB, 0x1DC), (0x01DE, 0x1DF), (0x01E0, 0x1E1), (0x01E2, 0x1E3), (0x01E4, 0x1E5),
  (0x01E6, 0x1E7), (0x01E8, 0x1E9), (0x01EA, 0x1EB), (0x01EC, 0x1ED), (0x01F1, 0x1F3),
  (0x01F2, 0x1F3), (0x01F4, 0x1F5), (0x01F6, 0x195), (0x01F7, 0x1BF), (0x01F8, 0x1F9),
  (0x01FA, 0x1FB), (0x01FC, 0x1FD), (0x01FE, 0x1FF), (0x0200, 0x201), (0x0202, 0x203),
  (0x0204, 0x205), (0x0206, 0x207), (0x0208, 0x209), (0x020A, 0x20B), (0x020C, 0x20D),
  (0x020E, 0x20F), (0x0210, 0x211), (0x0212, 0x213), (0x0214, 0x215), (0x0216, 0x217),
  (0x0218, 0x219), (0x021A, 0x21B), (0x021C, 0x21D), (0x021E, 0x21F), (0x0220, 0x19E),
  (0x0222, 0x223), (0x0224, 0x225), (0x0226, 0x227), (0x0228, 0x229), (0x022A, 0x22B),
  (0x022C, 0x22D), (0x022E, 0x22F), (0x0230, 0x231), (0x0232, 0x233), (0x023A, 0x2C65),
  (0x023B, 0x23C), (0x023D, 0x19A), (0x023E, 0x2C66), (0x0243, 0x180), (0x0244, 0x289),
  (0x0245, 0x28C), (0x0246, 0x247), (0x0248, 0x249), (0x024A, 0x24B), (0x024C, 0x24D),
  (0x024E, 0x24F), (0x1E00, 0x1E01), (0x1E02, 0x1E03), (0x1E04, 0x1E05), (0x1E06, 0x1E07),
  (0x1E08, 0x1E09), (0x1E0A, 0x1E0B), (0x1E0C, 0x1E0D), (0x1E0E, 0x1E0F), (0x1E10, 0x1E11),
  (0x1E12, 0x1E13), (0x1E14, 0x1E15), (0x1E16, 0x1E17), (0x1E18, 0x1E19), (0x1E1A, 0x1E1B),
  (0x1E1C, 0x1E1D), (0x1E1E, 0x1E1F), (0x1E20, 0x1E21), (0x1E22, 0x1E23), (0x1E24, 0x1E25),
  (0x1E26, 0x1E27), (0x1E28, 0x1E29), (0x1E2A, 0x1E2B), (0x1E2C, 0x1E2D), (0x1E2E, 0x1E2F),
  (0x1E30, 0x1E31), (0x1E32, 0x1E33), (0x1E34, 0x1E35), (0x1E36, 0x1E37), (0x1E38, 0x1E39),
  (0x1E3A, 0x1E3B), (0x1E3C, 0x1E3D), (0x1E3E, 0x1E3F), (0x1E40, 0x1E41), (0x1E42, 0x1E43),
  (0x1E44, 0x1E45), (0x1E46, 0x1E47), (0x1E48, 0x1E49), (0x1E4A, 0x1E4B), (0x1E4C, 0x1E4D),
  (0x1E4E, 0x1E4F), (0x1E50, 0x1E51), (0x1E52, 0x1E53), (0x1E54, 0x1E55), (0x1E56, 0x1E57),
  (0x1E58, 0x1E59), (0x1E5A, 0x1E5B), (0x1E5C, 0x1E5D), (0x1E5E, 0x1E5F), (0x1E60, 0x1E61),
  (0x1E62, 0x1E63), (0x1E64, 0x1E65), (0x1E66, 0x1E67), (0x1E68, 0x1E69), (0x1E6A, 0x1E6B),
  (0x1E6C, 0x1E6D), (0x1E6E, 0x1E6F), (0x1E70, 0x1E71), (0x1E72, 0x1E73), (0x1E74, 0x1E75),
  (0x1E76, 0x1E77), (0x1E78, 0x1E79), (0x1E7A, 0x1E7B), (0x1E7C, 0x1E7D), (0x1E7E, 0x1E7F),
  (0x1E80, 0x1E81), (0x1E82, 0x1E83), (0x1E84, 0x1E85), (0x1E86, 0x1E87), (0x1E88, 0x1E89),
  (0x1E8A, 0x1E8B), (0x1E8C, 0x1E8D), (0x1E8E, 0x1E8F), (0x1E90, 0x1E91), (0x1E92, 0x1E93),
  (0x1E94, 0x1E95), (0x1E9E, 0xDF), (0x1EA0, 0x1EA1), (0x1EA2, 0x1EA3), (0x1EA4, 0x1EA5),
  (0x1EA6, 0x1EA7), (0x1EA8, 0x1EA9), (0x1EAA, 0x1EAB), (0x1EAC, 0x1EAD), (0x1EAE, 0x1EAF),
  (0x1EB0, 0x1EB1), (0x1EB2, 0x1EB3), (0x1EB4, 0x1EB5), (0x1EB6, 0x1EB7), (0x1EB8, 0x1EB9),
  (0x1EBA, 0x1EBB), (0x1EBC, 0x1EBD), (0x1EBE, 0x1EBF), (0x1EC0, 0x1EC1), (0x1EC2, 0x1EC3),
  (0x1EC4, 0x1EC5), (0x1EC6, 0x1EC7), (0x1EC8, 0x1EC9), (0x1ECA, 0x1ECB), (0x1ECC, 0x1ECD),
  (0x1ECE, 0x1ECF), (0x1ED0, 0x1ED1), (0x1ED2, 0x1ED3), (0x1ED4, 0x1ED5), (0x1ED6, 0x1ED7),
  (0x1ED8, 0x1ED9), (0x1EDA, 0x1EDB), (0x1EDC, 0x1EDD), (0x1EDE, 0x1EDF), (0x1EE0, 0x1EE1),
  (0x1EE2, 0x1EE3), (0x1EE4, 0x1EE5), (0x1EE6, 0x1EE7), (0x1EE8, 0x1EE9), (0x1EEA, 0x1EEB),
  (0x1EEC, 0x1EED), (0x1EEE, 0x1EEF), (0x1EF0, 0x1EF1), (0x1EF2, 0x1EF3), (0x1EF4, 0x1EF5),
  (0x1EF6, 0x1EF7), (0x1EF8, 0x1EF9), (0x1EFA, 0x1EFB), (0x1EFE, 0x1EFF), (0x24B6, 0x24D0),
  (0x24B7, 0x24D1), (0x24B8, 0x24D2), (0x24B9, 0x24D3), (0x24BA, 0x24D4), (0x24BB, 0x24D5),
  (0x24BC, 0x24D6), (0x24BD, 0x24D7), (0x24BE, 0x24D8), (0x24BF, 0x24D9), (0x24C0, 0x24DA),
  (0x24C1, 0x24DB), (0x24C2, 0x24DC), (0x24C3, 0x24DD), (0x24C4, 0x24DE), (0x24C5, 0x24DF),
  (0x24C6, 0x24E0), (0x24C7, 0x24E1), (0x24C8, 0x24E2), (0x24C9, 0x24E3), (0x24CA, 0x24E4),
  (0x24CB, 0x24E5), (0x24CC, 0x24E6), (0x24CD, 0x24E7), (0x24CE, 0x24E8), (0x24CF, 0x24E9),
  (0x2C60, 0x2C61), (0x2C62, 0x26B), (0x2C63, 0x1D7D), (0x2C64, 0x27D), (0x2C67, 0x2C68),
  (0x2C69, 0x2C6A), (0x2C6B, 0x2C6C), (0x2C6E, 0x271), (0x2C6F, 0x250), (0x2C72, 0x2C73),
  (0x2C75, 0x2C76), (0xA728, 0xA729), (0xA732, 0xA733), (0xA734, 0xA735), (0xA736, 0xA737),
  (0xA738, 0xA739), (0xA73A, 0xA73B), (0xA73C, 0xA73D), (0xA73E, 0xA73F), (0xA740, 0xA741),
  (0xA742, 0xA743), (0xA744, 0xA745), (0xA746, 0xA747), (0xA748, 0xA749), (0xA74A, 0xA74B),
  (0xA74C, 0xA74D), (0xA74E, 0xA74F), (0xA750, 0xA751), (0xA752, 0xA753), (0xA754, 0xA755),
  (0xA756, 0xA757), (0xA758, 0xA759), (0xA75A, 0xA75B), (0xA75E, 0xA75F), (0xA760, 0xA761),
  (0xA762, 0xA763), (0xA766, 0xA767), (0xA779, 0xA77A), (0xA77B, 0xA77C), (0xA77D, 0x1D79),
  (0xA77E, 0xA77F), (0xA780, 0xA781), (0xA782, 0xA783), (0xA784, 0xA785), (0xFF21, 0xFF41),
  (0xFF22, 0xFF42), (0xFF23, 0xFF43), (0xFF24, 0xFF44), (0xFF25, 0xFF45), (0xFF26, 0xFF46),
  (0xFF27, 0xFF47), (0xFF28, 0xFF48), (0xFF29, 0xFF49), (0xFF2A, 0xFF4A), (0xFF2B, 0xFF4B),
  (0xFF2C, 0xFF4C), (0xFF2D, 0xFF4D), (0xFF2E, 0xFF4E), (0xFF2F, 0xFF4F), (0xFF30, 0xFF50),
  (0xFF31, 0xFF51), (0xFF32, 0xFF52), (0xFF33, 0xFF53), (0xFF34, 0xFF54), (0xFF35, 0xFF55),
  (0xFF36, 0xFF56), (0xFF37, 0xFF57), (0xFF38, 0xFF58), (0xFF39, 0xFF59), (0xFF3A, 0xFF5A)]

/-- All characters of Unicode whose canonical decomposition (NFD) is an ASCII letter followed by
combining marks, with that letter. -/
def accented : List (Rune × Rune) := [
  (0x00C0, 0x41), (0x00C1, 0x41), (0x00C2, 0x41), (0x00C3, 0x41), (0x00C4, 0x41), (0x00C5, 0x41),
  (0x00C7, 0x43), (0x00C8, 0x45), (0x00C9, 0x45), (0x00CA, 0x45), (0x00CB, 0x45), (0x00CC, 0x49),
  (0x00CD, 0x49), (0x00CE, 0x49), (0x00CF, 0x49), (0x00D1, 0x4E), (0x00D2, 0x4F), (0x00D3, 0x4F),
  (0x00D4, 0x4F), (0x00D5, 0x4F), (0x00D6, 0x4F), (0x00D9, 0x55), (0x00DA, 0x55), (0x00DB, 0x55),
  (0x00DC, 0x55), (0x00DD, 0x59), (0x00E0, 0x61), (0x00E1, 0x61), (0x00E2, 0x61), (0x00E3, 0x61),
  (0x00E4, 0x61), (0x00E5, 0x61), (0x00E7, 0x63), (0x00E8, 0x65), (0x00E9, 0x65), (0x00EA, 0x65),
  (0x00EB, 0x65), (0x00EC, 0x69), (0x00ED, 0x69), (0x00EE, 0x69), (0x00EF, 0x69), (0x00F1, 0x6E),
  (0x00F2, 0x6F), (0x00F3, 0x6F), (0x00F4, 0x6F), (0x00F5, 0x6F), (0x00F6, 0x6F), (0x00F9, 0x75),
  (0x00FA, 0x75), (0x00FB, 0x75), (0x00FC, 0x75), (0x00FD, 0x79), (0x00FF, 0x79), (0x0100, 0x41),
  (0x0101, 0x61), (0x0102, 0x41), (0x0103, 0x61), (0x0104, 0x41), (0x0105, 0x61), (0x0106, 0x43),
  (0x0107, 0x63), (0x0108, 0x43), (0x0109, 0x63), (0x010A, 0x43), (0x010B, 0x63), (0x010C, 0x43),
  (0x010D, 0x63), (0x010E, 0x44), (0x010F, 0x64), (0x0112, 0x45), (0x0113, 0x65), (0x0114, 0x45),
  (0x0115, 0x65), (0x0116, 0x45), (0x0117, 0x65), (0x0118, 0x45), (0x0119, 0x65), (0x011A, 0x45),
  (0x011B, 0x65), (0x011C, 0x47), (0x011D, 0x67), (0x011E, 0x47), (0x011F, 0x67), (0x0120, 0x47),
  (0x0121, 0x67), (0x0122, 0x47), (0x0123, 0x67), (0x0124, 0x48), (0x0125, 0x68), (0x0128, 0x49),
  (0x0129, 0x69), (0x012A, 0x49), (0x012B, 0x69), (0x012C, 0x49), (0x012D, 0x69), (0x012E, 0x49),
  (0x012F, 0x69), (0x0130, 0x49), (0x0134, 0x4A), (0x0135, 0x6A), (0x0136, 0x4B), (0x0137, 0x6B),
  (0x0139, 0x4C), (0x013A, 0x6C), (0x013B, 0x4C), (0x013C, 0x6C), (0x013D, 0x4C), (0x013E, 0x6C),
  (0x0143, 0x4E), (0x0144, 0x6E), (0x0145, 0x4E), (0x0146, 0x6E), (0x0147, 0x4E), (0x0148, 0x6E),
  (0x014C, 0x4F), (0x014D, 0x6F), (0x014E, 0x4F), (0x014F, 0x6F), (0x0150, 0x4F), (0x0151, 0x6F),
  (0x0154, 0x52), (0x0155, 0x72), (0x0156, 0x52), (0x0157, 0x72), (0x0158, 0x52), (0x0159, 0x72),
  (0x015A, 0x53), (0x015B, 0x73), (0x015C, 0x53), (0x015D, 0x73), (0x015E, 0x53), (0x015F, 0x73),
  (0x0160, 0x53), (0x0161, 0x73), (0x0162, 0x54), (0x0163, 0x74), (0x0164, 0x54), (0x0165, 0x74),
  (0x0168, 0x55), (0x0169, 0x75), (0x016A, 0x55), (0x016B, 0x75), (0x016C, 0x55), (0x016D, 0x75),
  (0x016E, 0x55), (0x016F, 0x75), (0x0170, 0x55), (0x0171, 0x75), (0x0172, 0x55), (0x0173, 0x75),
  (0x0174, 0x57), (0x0175, 0x77), (0x0176, 0x59), (0x0177, 0x79), (0x0178, 0x59), (0x0179, 0x5A),
  (0x017A, 0x7A), (0x017B, 0x5A), (0x017C, 0x7A), (0x017D, 0x5A), (0x017E, 0x7A), (0x01A0, 0x4F),
  (0x01A1, 0x6F), (0x01AF, 0x55), (0x01B0, 0x75), (0x01CD, 0x41), (0x01CE, 0x61), (0x01CF, 0x49),
  (0x01D0, 0x69), (0x01D1, 0x4F), (0x01D2, 0x6F), (0x01D3, 0x55), (0x01D4, 0x75), (0x01D5, 0x55),
  (0x01D6, 0x75), (0x01D7, 0x55), (0x01D8, 0x75), (0x01D9, 0x55), (0x01DA, 0x75), (0x01DB, 0x55),
  (0x01DC, 0x75), (0x01DE, 0x41), (0x01DF, 0x61), (0x01E0, 0x41), (0x01E1, 0x61), (0x01E6, 0x47),
  (0x01E7, 0x67), (0x01E8, 0x4B), (0x01E9, 0x6B), (0x01EA, 0x4F), (0x01EB, 0x6F), (0x01EC, 0x4F),
  (0x01ED, 0x6F), (0x01F0, 0x6A), (0x01F4, 0x47), (0x01F5, 0x67), (0x01F8, 0x4E), (0x01F9, 0x6E),
  (0x01FA, 0x41), (0x01FB, 0x61), (0x0200, 0x41), (0x0201, 0x61), (0x0202, 0x41), (0x0203, 0x61),
  (0x0204, 0x45), (0x0205, 0x65), (0x0206, 0x45), (0x0207, 0x65), (0x0208, 0x49), (0x0209, 0x69),
  (0x020A, 0x49), (0x020B, 0x69), (0x020C, 0x4F), (0x020D, 0x6F), (0x020E, 0x4F), (0x020F, 0x6F),
  (0x0210, 0x52), (0x0211, 0x72), (0x0212, 0x52), (0x0213, 0x72), (0x0214, 0x55), (0x0215, 0x75),
  (0x0216, 0x55), (0x0217, 0x75), (0x0218, 0x53), (0x0219, 0x73), (0x021A, 0x54), (0x021B, 0x74),
  (0x021E, 0x48), (0x021F, 0x68), (0x0226, 0x41), (0x0227, 0x61), (0x0228, 0x45), (0x0229, 0x65),
  (0x022A, 0x4F), (0x022B, 0x6F), (0x022C, 0x4F), (0x022D, 0x6F), (0x022E, 0x4F), (0x022F, 0x6F),
  (0x0230, 0x4F), (0x0231, 0x6F), (0x0232, 0x59), (0x0233, 0x79), (0x1E00, 0x41), (0x1E01, 0x61),
  (0x1E02, 0x42), (0x1E03, 0x62), (0x1E04, 0x42), (0x1E05, 0x62), (0x1E06, 0x42), (0x1E07, 0x62),
  (0x1E08, 0x43), (0x1E09, 0x63), (0x1E0A, 0x44), (0x1E0B, 0x64), (0x1E0C, 0x44), (0x1E0D, 0x64),
  (0x1E0E, 0x44), (0x1E0F, 0x64), (0x1E10, 0x44), (0x1E11, 0x64), (0x1E12, 0x44), (0x1E13, 0x64),
  (0x1E14, 0x45), (0x1E15, 0x65), (0x1E16, 0x45), (0x1E17, 0x65), (0x1E18, 0x45), (0x1E19, 0x65),
  (0x1E1A, 0x45), (0x1E1B, 0x65), (0x1E1C, 0x45), (0x1E1D, 0x65), (0x1E1E, 0x46), (0x1E1F, 0x66),
  (0x1E20, 0x47), (0x1E21, 0x67), (0x1E22, 0x48), (0x1E23, 0x68), (0x1E24, 0x48), (0x1E25, 0x68),
  (0x1E26, 0x48), (0x1E27, 0x68), (0x1E28, 0x48), (0x1E29, 0x68), (0x1E2A, 0x48), (0x1E2B, 0x68),
  (0x1E2C, 0x49), (0x1E2D, 0x69), (0x1E2E, 0x49), (0x1E2F, 0x69), (0x1E30, 0x4B), (0x1E31, 0x6B),
  (0x1E32, 0x4B), (0x1E33, 0x6B), (0x1E34, 0x4B), (0x1E35, 0x6B), (0x1E36, 0x4C), (0x1E37, 0x6C),
  (0x1E38, 0x4C), (0x1E39, 0x6C), (0x1E3A, 0x4C), (0x1E3B, 0x6C), (0x1E3C, 0x4C), (0x1E3D, 0x6C),
  (0x1E3E, 0x4D), (0x1E3F, 0x6D), (0x1E40, 0x4D), (0x1E41, 0x6D), (0x1E42, 0x4D), (0x1E43, 0x6D),
  (0x1E44, 0x4E), (0x1E45, 0x6E), (0x1E46, 0x4E), (0x1E47, 0x6E), (0x1E48, 0x4E), (0x1E49, 0x6E),
  (0x1E4A, 0x4E), (0x1E4B, 0x6E), (0x1E4C, 0x4F), (0x1E4D, 0x6F), (0x1E4E, 0x4F), (0x1E4F, 0x6F),
  (0x1E50, 0x4F), (0x1E51, 0x6F), (0x1E52, 0x4F), (0x1E53, 0x6F), (0x1E54, 0x50), (0x1E55, 0x70),
  (0x1E56, 0x50), (0x1E57, 0x70), (0x1E58, 0x52), (0x1E59, 0x72), (0x1E5A, 0x52), (0x1E5B, 0x72),
  (0x1E5C, 0x52), (0x1E5D, 0x72), (0x1E5E, 0x52), (0x1E5F, 0x72), (0x1E60, 0x53), (0x1E61, 0x73),
  (0x1E62, 0x53), (0x1E63, 0x73), (0x1E64, 0x53), (0x1E65, 0x73), (0x1E66, 0x53), (0x1E67, 0x73),
  (0x1E68, 0x53), (0x1E69, 0x73), (0x1E6A, 0x54), (0x1E6B, 0x74), (0x1E6C, 0x54), (0x1E6D, 0x74),
  (0x1E6E, 0x54), (0x1E6F, 0x74), (0x1E70, 0x54), (0x1E71, 0x74), (0x1E72, 0x55), (0x1E73, 0x75),
  (0x1E74, 0x55), (0x1E75, 0x75), (0x1E76, 0x55), (0x1E77, 0x75), (0x1E78, 0x55), (0x1E79, 0x75),
  (0x1E7A, 0x55), (0x1E7B, 0x75), (0x1E7C, 0x56), (0x1E7D, 0x76), (0x1E7E, 0x56), (0x1E7F, 0x76),
  (0x1E80, 0x57), (0x1E81, 0x77), (0x1E82, 0x57), (0x1E83, 0x77), (0x1E84, 0x57), (0x1E85, 0x77),
  (0x1E86, 0x57), (0x1E87, 0x77), (0x1E88, 0x57), (0x1E89, 0x77), (0x1E8A, 0x58), (0x1E8B, 0x78),
  (0x1E8C, 0x58), (0x1E8D, 0x78), (0x1E8E, 0x59), (0x1E8F, 0x79), (0x1E90, 0x5A), (0x1E91, 0x7A),
  (0x1E92, 0x5A), (0x1E93, 0x7A), (0x1E94, 0x5A), (0x1E95, 0x7A), (0x1E96, 0x68), (0x1E97, 0x74),
  (0x1E98, 0x77), (0x1E99, 0x79), (0x1EA0, 0x41), (0x1EA1, 0x61), (0x1EA2, 0x41), (0x1EA3, 0x61),
  (0x1EA4, 0x41), (0x1EA5, 0x61), (0x1EA6, 0x41), (0x1EA7, 0x61), (0x1EA8, 0x41), (0x1EA9, 0x61),
  (0x1EAA, 0x41), (0x1EAB, 0x61), (0x1EAC, 0x41), (0x1EAD, 0x61), (0x1EAE, 0x41), (0x1EAF, 0x61),
  (0x1EB0, 0x41), (0x1EB1, 0x61), (0x1EB2, 0x41), (0x1EB3, 0x61), (0x1EB4, 0x41), (0x1EB5, 0x61),
  (0x1EB6, 0x41), (0x1EB7, 0x61), (0x1EB8, 0x45), (0x1EB9, 0x65), (0x1EBA, 0x45), (0x1EBB, 0x65),
  (0x1EBC, 0x45), (0x1EBD, 0x65), (0x1EBE, 0x45), (0x1EBF, 0x65), (0x1EC0, 0x45), (0x1EC1, 0x65),
  (0x1EC2, 0x45), (0x1EC3, 0x65), (0x1EC4, 0x45), (0x1EC5, 0x65), (0x1EC6, 0x45), (0x1EC7, 0x65),
  (0x1EC8, 0x49), (0x1EC9, 0x69), (0x1ECA, 0x49), (0x1ECB, 0x69), (0x1ECC, 0x4F), (0x1ECD, 0x6F),
  (0x1ECE, 0x4F), (0x1ECF, 0x6F), (0x1ED0, 0x4F), (0x1ED1, 0x6F), (0x1ED2, 0x4F), (0x1ED3, 0x6F),
  (0x1ED4, 0x4F), (0x1ED5, 0x6F), (0x1ED6, 0x4F), (0x1ED7, 0x6F), (0x1ED8, 0x4F), (0x1ED9, 0x6F),
  (0x1EDA, 0x4F), (0x1EDB, 0x6F), (0x1EDC, 0x4F), (0x1EDD, 0x6F), (0x1EDE, 0x4F), (0x1EDF, 0x6F),
  (0x1EE0, 0x4F), (0x1EE1, 0x6F), (0x1EE2, 0x4F), (0x1EE3, 0x6F), (0x1EE4, 0x55), (0x1EE5, 0x75),
  (0x1EE6, 0x55), (0x1EE7, 0x75), (0x1EE8, 0x55), (0x1EE9, 0x75), (0x1EEA, 0x55), (0x1EEB, 0x75),
  (0x1EEC, 0x55), (0x1EED, 0x75), (0x1EEE, 0x55), (0x1EEF, 0x75), (0x1EF0, 0x55), (0x1EF1, 0x75),
  (0x1EF2, 0x59), (0x1EF3, 0x79), (0x1EF4, 0x59), (0x1EF5, 0x79), (0x1EF6, 0x59), (0x1EF7, 0x79),
  (0x1EF8, 0x59), (0x1EF9, 0x79), (0x212B, 0x41)]

end Jargon
