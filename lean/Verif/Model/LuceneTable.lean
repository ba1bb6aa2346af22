import Verif.Model.Prelude

/-! The cases of the `switch` of filters/ascii/ASCIIFoldingFilter.java:188-2099, in order, transcribed by
a script: one line per group of `case` labels. This is the Lucene filter that fold.go is a port of; the
file is part of /repo. -/

namespace Jargon

/-- filters/ascii/ASCIIFoldingFilter.java:189-2095: the characters of each group of labels and those it
writes. Each line carries the line numbers of its labels. -/
def luceneCases : List (List Nat × List Nat) := [
  -- 189-224: A
    ([0x00C0, 0x00C1, 0x00C2, 0x00C3, 0x00C4, 0x00C5, 0x0100, 0x0102, 0x0104, 0x018F, 0x01CD,
      0x01DE, 0x01E0, 0x01FA, 0x0200, 0x0202, 0x0226, 0x023A, 0x1D00, 0x1E00, 0x1EA0, 0x1EA2,
      0x1EA4, 0x1EA6, 0x1EA8, 0x1EAA, 0x1EAC, 0x1EAE, 0x1EB0, 0x1EB2, 0x1EB4, 0x1EB6, 0x24B6,
      0xFF21], [0x41]),
  -- 225-267: a
    ([0x00E0, 0x00E1, 0x00E2, 0x00E3, 0x00E4, 0x00E5, 0x0101, 0x0103, 0x0105, 0x01CE, 0x01DF,
      0x01E1, 0x01FB, 0x0201, 0x0203, 0x0227, 0x0250, 0x0259, 0x025A, 0x1D8F, 0x1D95, 0x1E01,
      0x1E9A, 0x1EA1, 0x1EA3, 0x1EA5, 0x1EA7, 0x1EA9, 0x1EAB, 0x1EAD, 0x1EAF, 0x1EB1, 0x1EB3,
      0x1EB5, 0x1EB7, 0x2090, 0x2094, 0x24D0, 0x2C65, 0x2C6F, 0xFF41], [0x61]),
  -- 268-271: AA
    ([0xA732], [0x41, 0x41]),
  -- 272-278: AE
    ([0x00C6, 0x01E2, 0x01FC, 0x1D01], [0x41, 0x45]),
  -- 279-282: AO
    ([0xA734], [0x41, 0x4F]),
  -- 283-286: AU
    ([0xA736], [0x41, 0x55]),
  -- 287-291: AV
    ([0xA738, 0xA73A], [0x41, 0x56]),
  -- 292-295: AY
    ([0xA73C], [0x41, 0x59]),
  -- 296-300: (a)
    ([0x249C], [0x28, 0x61, 0x29]),
  -- 301-304: aa
    ([0xA733], [0x61, 0x61]),
  -- 305-311: ae
    ([0x00E6, 0x01E3, 0x01FD, 0x1D02], [0x61, 0x65]),
  -- 312-315: ao
    ([0xA735], [0x61, 0x6F]),
  -- 316-319: au
    ([0xA737], [0x61, 0x75]),
  -- 320-324: av
    ([0xA739, 0xA73B], [0x61, 0x76]),
  -- 325-328: ay
    ([0xA73D], [0x61, 0x79]),
  -- 329-340: B
    ([0x0181, 0x0182, 0x0243, 0x0299, 0x1D03, 0x1E02, 0x1E04, 0x1E06, 0x24B7, 0xFF22], [0x42]),
  -- 341-352: b
    ([0x0180, 0x0183, 0x0253, 0x1D6C, 0x1D80, 0x1E03, 0x1E05, 0x1E07, 0x24D1, 0xFF42], [0x62]),
  -- 353-357: (b)
    ([0x249D], [0x28, 0x62, 0x29]),
  -- 358-371: C
    ([0x00C7, 0x0106, 0x0108, 0x010A, 0x010C, 0x0187, 0x023B, 0x0297, 0x1D04, 0x1E08, 0x24B8,
      0xFF23], [0x43]),
  -- 372-387: c
    ([0x00E7, 0x0107, 0x0109, 0x010B, 0x010D, 0x0188, 0x023C, 0x0255, 0x1E09, 0x2184, 0x24D2,
      0xA73E, 0xA73F, 0xFF43], [0x63]),
  -- 388-392: (c)
    ([0x249E], [0x28, 0x63, 0x29]),
  -- 393-410: D
    ([0x00D0, 0x010E, 0x0110, 0x0189, 0x018A, 0x018B, 0x1D05, 0x1D06, 0x1E0A, 0x1E0C, 0x1E0E,
      0x1E10, 0x1E12, 0x24B9, 0xA779, 0xFF24], [0x44]),
  -- 411-430: d
    ([0x00F0, 0x010F, 0x0111, 0x018C, 0x0221, 0x0256, 0x0257, 0x1D6D, 0x1D81, 0x1D91, 0x1E0B,
      0x1E0D, 0x1E0F, 0x1E11, 0x1E13, 0x24D3, 0xA77A, 0xFF44], [0x64]),
  -- 431-435: DZ
    ([0x01C4, 0x01F1], [0x44, 0x5A]),
  -- 436-440: Dz
    ([0x01C5, 0x01F2], [0x44, 0x7A]),
  -- 441-445: (d)
    ([0x249F], [0x28, 0x64, 0x29]),
  -- 446-449: db
    ([0x0238], [0x64, 0x62]),
  -- 450-456: dz
    ([0x01C6, 0x01F3, 0x02A3, 0x02A5], [0x64, 0x7A]),
  -- 457-490: E
    ([0x00C8, 0x00C9, 0x00CA, 0x00CB, 0x0112, 0x0114, 0x0116, 0x0118, 0x011A, 0x018E, 0x0190,
      0x0204, 0x0206, 0x0228, 0x0246, 0x1D07, 0x1E14, 0x1E16, 0x1E18, 0x1E1A, 0x1E1C, 0x1EB8,
      0x1EBA, 0x1EBC, 0x1EBE, 0x1EC0, 0x1EC2, 0x1EC4, 0x1EC6, 0x24BA, 0x2C7B, 0xFF25], [0x45]),
  -- 491-533: e
    ([0x00E8, 0x00E9, 0x00EA, 0x00EB, 0x0113, 0x0115, 0x0117, 0x0119, 0x011B, 0x01DD, 0x0205,
      0x0207, 0x0229, 0x0247, 0x0258, 0x025B, 0x025C, 0x025D, 0x025E, 0x029A, 0x1D08, 0x1D92,
      0x1D93, 0x1D94, 0x1E15, 0x1E17, 0x1E19, 0x1E1B, 0x1E1D, 0x1EB9, 0x1EBB, 0x1EBD, 0x1EBF,
      0x1EC1, 0x1EC3, 0x1EC5, 0x1EC7, 0x2091, 0x24D4, 0x2C78, 0xFF45], [0x65]),
  -- 534-538: (e)
    ([0x24A0], [0x28, 0x65, 0x29]),
  -- 539-547: F
    ([0x0191, 0x1E1E, 0x24BB, 0xA730, 0xA77B, 0xA7FB, 0xFF26], [0x46]),
  -- 548-557: f
    ([0x0192, 0x1D6E, 0x1D82, 0x1E1F, 0x1E9B, 0x24D5, 0xA77C, 0xFF46], [0x66]),
  -- 558-562: (f)
    ([0x24A1], [0x28, 0x66, 0x29]),
  -- 563-566: ff
    ([0xFB00], [0x66, 0x66]),
  -- 567-571: ffi
    ([0xFB03], [0x66, 0x66, 0x69]),
  -- 572-576: ffl
    ([0xFB04], [0x66, 0x66, 0x6C]),
  -- 577-580: fi
    ([0xFB01], [0x66, 0x69]),
  -- 581-584: fl
    ([0xFB02], [0x66, 0x6C]),
  -- 585-603: G
    ([0x011C, 0x011E, 0x0120, 0x0122, 0x0193, 0x01E4, 0x01E5, 0x01E6, 0x01E7, 0x01F4, 0x0262,
      0x029B, 0x1E20, 0x24BC, 0xA77D, 0xA77E, 0xFF27], [0x47]),
  -- 604-619: g
    ([0x011D, 0x011F, 0x0121, 0x0123, 0x01F5, 0x0260, 0x0261, 0x1D77, 0x1D79, 0x1D83, 0x1E21,
      0x24D6, 0xA77F, 0xFF47], [0x67]),
  -- 620-624: (g)
    ([0x24A2], [0x28, 0x67, 0x29]),
  -- 625-639: H
    ([0x0124, 0x0126, 0x021E, 0x029C, 0x1E22, 0x1E24, 0x1E26, 0x1E28, 0x1E2A, 0x24BD, 0x2C67,
      0x2C75, 0xFF28], [0x48]),
  -- 640-658: h
    ([0x0125, 0x0127, 0x021F, 0x0265, 0x0266, 0x02AE, 0x02AF, 0x1E23, 0x1E25, 0x1E27, 0x1E29,
      0x1E2B, 0x1E96, 0x24D7, 0x2C68, 0x2C76, 0xFF48], [0x68]),
  -- 659-662: HV
    ([0x01F6], [0x48, 0x56]),
  -- 663-667: (h)
    ([0x24A3], [0x28, 0x68, 0x29]),
  -- 668-671: hv
    ([0x0195], [0x68, 0x76]),
  -- 672-696: I
    ([0x00CC, 0x00CD, 0x00CE, 0x00CF, 0x0128, 0x012A, 0x012C, 0x012E, 0x0130, 0x0196, 0x0197,
      0x01CF, 0x0208, 0x020A, 0x026A, 0x1D7B, 0x1E2C, 0x1E2E, 0x1EC8, 0x1ECA, 0x24BE, 0xA7FE,
      0xFF29], [0x49]),
  -- 697-722: i
    ([0x00EC, 0x00ED, 0x00EE, 0x00EF, 0x0129, 0x012B, 0x012D, 0x012F, 0x0131, 0x01D0, 0x0209,
      0x020B, 0x0268, 0x1D09, 0x1D62, 0x1D7C, 0x1D96, 0x1E2D, 0x1E2F, 0x1EC9, 0x1ECB, 0x2071,
      0x24D8, 0xFF49], [0x69]),
  -- 723-726: IJ
    ([0x0132], [0x49, 0x4A]),
  -- 727-731: (i)
    ([0x24A4], [0x28, 0x69, 0x29]),
  -- 732-735: ij
    ([0x0133], [0x69, 0x6A]),
  -- 736-742: J
    ([0x0134, 0x0248, 0x1D0A, 0x24BF, 0xFF2A], [0x4A]),
  -- 743-754: j
    ([0x0135, 0x01F0, 0x0237, 0x0249, 0x025F, 0x0284, 0x029D, 0x24D9, 0x2C7C, 0xFF4A], [0x6A]),
  -- 755-759: (j)
    ([0x24A5], [0x28, 0x6A, 0x29]),
  -- 760-774: K
    ([0x0136, 0x0198, 0x01E8, 0x1D0B, 0x1E30, 0x1E32, 0x1E34, 0x24C0, 0x2C69, 0xA740, 0xA742,
      0xA744, 0xFF2B], [0x4B]),
  -- 775-790: k
    ([0x0137, 0x0199, 0x01E9, 0x029E, 0x1D84, 0x1E31, 0x1E33, 0x1E35, 0x24DA, 0x2C6A, 0xA741,
      0xA743, 0xA745, 0xFF4B], [0x6B]),
  -- 791-795: (k)
    ([0x24A6], [0x28, 0x6B, 0x29]),
  -- 796-816: L
    ([0x0139, 0x013B, 0x013D, 0x013F, 0x0141, 0x023D, 0x029F, 0x1D0C, 0x1E36, 0x1E38, 0x1E3A,
      0x1E3C, 0x24C1, 0x2C60, 0x2C62, 0xA746, 0xA748, 0xA780, 0xFF2C], [0x4C]),
  -- 817-839: l
    ([0x013A, 0x013C, 0x013E, 0x0140, 0x0142, 0x019A, 0x0234, 0x026B, 0x026C, 0x026D, 0x1D85,
      0x1E37, 0x1E39, 0x1E3B, 0x1E3D, 0x24DB, 0x2C61, 0xA747, 0xA749, 0xA781, 0xFF4C], [0x6C]),
  -- 840-843: LJ
    ([0x01C7], [0x4C, 0x4A]),
  -- 844-847: LL
    ([0x1EFA], [0x4C, 0x4C]),
  -- 848-851: Lj
    ([0x01C8], [0x4C, 0x6A]),
  -- 852-856: (l)
    ([0x24A7], [0x28, 0x6C, 0x29]),
  -- 857-860: lj
    ([0x01C9], [0x6C, 0x6A]),
  -- 861-864: ll
    ([0x1EFB], [0x6C, 0x6C]),
  -- 865-868: ls
    ([0x02AA], [0x6C, 0x73]),
  -- 869-872: lz
    ([0x02AB], [0x6C, 0x7A]),
  -- 873-884: M
    ([0x019C, 0x1D0D, 0x1E3E, 0x1E40, 0x1E42, 0x24C2, 0x2C6E, 0xA7FD, 0xA7FF, 0xFF2D], [0x4D]),
  -- 885-896: m
    ([0x026F, 0x0270, 0x0271, 0x1D6F, 0x1D86, 0x1E3F, 0x1E41, 0x1E43, 0x24DC, 0xFF4D], [0x6D]),
  -- 897-901: (m)
    ([0x24A8], [0x28, 0x6D, 0x29]),
  -- 902-919: N
    ([0x00D1, 0x0143, 0x0145, 0x0147, 0x014A, 0x019D, 0x01F8, 0x0220, 0x0274, 0x1D0E, 0x1E44,
      0x1E46, 0x1E48, 0x1E4A, 0x24C3, 0xFF2E], [0x4E]),
  -- 920-941: n
    ([0x00F1, 0x0144, 0x0146, 0x0148, 0x0149, 0x014B, 0x019E, 0x01F9, 0x0235, 0x0272, 0x0273,
      0x1D70, 0x1D87, 0x1E45, 0x1E47, 0x1E49, 0x1E4B, 0x207F, 0x24DD, 0xFF4E], [0x6E]),
  -- 942-945: NJ
    ([0x01CA], [0x4E, 0x4A]),
  -- 946-949: Nj
    ([0x01CB], [0x4E, 0x6A]),
  -- 950-954: (n)
    ([0x24A9], [0x28, 0x6E, 0x29]),
  -- 955-958: nj
    ([0x01CC], [0x6E, 0x6A]),
  -- 959-1004: O
    ([0x00D2, 0x00D3, 0x00D4, 0x00D5, 0x00D6, 0x00D8, 0x014C, 0x014E, 0x0150, 0x0186, 0x019F,
      0x01A0, 0x01D1, 0x01EA, 0x01EC, 0x01FE, 0x020C, 0x020E, 0x022A, 0x022C, 0x022E, 0x0230,
      0x1D0F, 0x1D10, 0x1E4C, 0x1E4E, 0x1E50, 0x1E52, 0x1ECC, 0x1ECE, 0x1ED0, 0x1ED2, 0x1ED4,
      0x1ED6, 0x1ED8, 0x1EDA, 0x1EDC, 0x1EDE, 0x1EE0, 0x1EE2, 0x24C4, 0xA74A, 0xA74C, 0xFF2F
      ], [0x4F]),
  -- 1005-1053: o
    ([0x00F2, 0x00F3, 0x00F4, 0x00F5, 0x00F6, 0x00F8, 0x014D, 0x014F, 0x0151, 0x01A1, 0x01D2,
      0x01EB, 0x01ED, 0x01FF, 0x020D, 0x020F, 0x022B, 0x022D, 0x022F, 0x0231, 0x0254, 0x0275,
      0x1D16, 0x1D17, 0x1D97, 0x1E4D, 0x1E4F, 0x1E51, 0x1E53, 0x1ECD, 0x1ECF, 0x1ED1, 0x1ED3,
      0x1ED5, 0x1ED7, 0x1ED9, 0x1EDB, 0x1EDD, 0x1EDF, 0x1EE1, 0x1EE3, 0x2092, 0x24DE, 0x2C7A,
      0xA74B, 0xA74D, 0xFF4F], [0x6F]),
  -- 1054-1058: OE
    ([0x0152, 0x0276], [0x4F, 0x45]),
  -- 1059-1062: OO
    ([0xA74E], [0x4F, 0x4F]),
  -- 1063-1067: OU
    ([0x0222, 0x1D15], [0x4F, 0x55]),
  -- 1068-1072: (o)
    ([0x24AA], [0x28, 0x6F, 0x29]),
  -- 1073-1077: oe
    ([0x0153, 0x1D14], [0x6F, 0x65]),
  -- 1078-1081: oo
    ([0xA74F], [0x6F, 0x6F]),
  -- 1082-1085: ou
    ([0x0223], [0x6F, 0x75]),
  -- 1086-1097: P
    ([0x01A4, 0x1D18, 0x1E54, 0x1E56, 0x24C5, 0x2C63, 0xA750, 0xA752, 0xA754, 0xFF30], [0x50]),
  -- 1098-1111: p
    ([0x01A5, 0x1D71, 0x1D7D, 0x1D88, 0x1E55, 0x1E57, 0x24DF, 0xA751, 0xA753, 0xA755, 0xA7FC,
      0xFF50], [0x70]),
  -- 1112-1116: (p)
    ([0x24AB], [0x28, 0x70, 0x29]),
  -- 1117-1123: Q
    ([0x024A, 0x24C6, 0xA756, 0xA758, 0xFF31], [0x51]),
  -- 1124-1132: q
    ([0x0138, 0x024B, 0x02A0, 0x24E0, 0xA757, 0xA759, 0xFF51], [0x71]),
  -- 1133-1137: (q)
    ([0x24AC], [0x28, 0x71, 0x29]),
  -- 1138-1141: qp
    ([0x0239], [0x71, 0x70]),
  -- 1142-1162: R
    ([0x0154, 0x0156, 0x0158, 0x0210, 0x0212, 0x024C, 0x0280, 0x0281, 0x1D19, 0x1D1A, 0x1E58,
      0x1E5A, 0x1E5C, 0x1E5E, 0x24C7, 0x2C64, 0xA75A, 0xA782, 0xFF32], [0x52]),
  -- 1163-1186: r
    ([0x0155, 0x0157, 0x0159, 0x0211, 0x0213, 0x024D, 0x027C, 0x027D, 0x027E, 0x027F, 0x1D63,
      0x1D72, 0x1D73, 0x1D89, 0x1E59, 0x1E5B, 0x1E5D, 0x1E5F, 0x24E1, 0xA75B, 0xA783, 0xFF52
      ], [0x72]),
  -- 1187-1191: (r)
    ([0x24AD], [0x28, 0x72, 0x29]),
  -- 1192-1207: S
    ([0x015A, 0x015C, 0x015E, 0x0160, 0x0218, 0x1E60, 0x1E62, 0x1E64, 0x1E66, 0x1E68, 0x24C8,
      0xA731, 0xA785, 0xFF33], [0x53]),
  -- 1208-1229: s
    ([0x015B, 0x015D, 0x015F, 0x0161, 0x017F, 0x0219, 0x023F, 0x0282, 0x1D74, 0x1D8A, 0x1E61,
      0x1E63, 0x1E65, 0x1E67, 0x1E69, 0x1E9C, 0x1E9D, 0x24E2, 0xA784, 0xFF53], [0x73]),
  -- 1230-1233: SS
    ([0x1E9E], [0x53, 0x53]),
  -- 1234-1238: (s)
    ([0x24AE], [0x28, 0x73, 0x29]),
  -- 1239-1242: ss
    ([0x00DF], [0x73, 0x73]),
  -- 1243-1246: st
    ([0xFB06], [0x73, 0x74]),
  -- 1247-1263: T
    ([0x0162, 0x0164, 0x0166, 0x01AC, 0x01AE, 0x021A, 0x023E, 0x1D1B, 0x1E6A, 0x1E6C, 0x1E6E,
      0x1E70, 0x24C9, 0xA786, 0xFF34], [0x54]),
  -- 1264-1283: t
    ([0x0163, 0x0165, 0x0167, 0x01AB, 0x01AD, 0x021B, 0x0236, 0x0287, 0x0288, 0x1D75, 0x1E6B,
      0x1E6D, 0x1E6F, 0x1E71, 0x1E97, 0x24E3, 0x2C66, 0xFF54], [0x74]),
  -- 1284-1288: TH
    ([0x00DE, 0xA766], [0x54, 0x48]),
  -- 1289-1292: TZ
    ([0xA728], [0x54, 0x5A]),
  -- 1293-1297: (t)
    ([0x24AF], [0x28, 0x74, 0x29]),
  -- 1298-1301: tc
    ([0x02A8], [0x74, 0x63]),
  -- 1302-1307: th
    ([0x00FE, 0x1D7A, 0xA767], [0x74, 0x68]),
  -- 1308-1311: ts
    ([0x02A6], [0x74, 0x73]),
  -- 1312-1315: tz
    ([0xA729], [0x74, 0x7A]),
  -- 1316-1352: U
    ([0x00D9, 0x00DA, 0x00DB, 0x00DC, 0x0168, 0x016A, 0x016C, 0x016E, 0x0170, 0x0172, 0x01AF,
      0x01D3, 0x01D5, 0x01D7, 0x01D9, 0x01DB, 0x0214, 0x0216, 0x0244, 0x1D1C, 0x1D7E, 0x1E72,
      0x1E74, 0x1E76, 0x1E78, 0x1E7A, 0x1EE4, 0x1EE6, 0x1EE8, 0x1EEA, 0x1EEC, 0x1EEE, 0x1EF0,
      0x24CA, 0xFF35], [0x55]),
  -- 1353-1389: u
    ([0x00F9, 0x00FA, 0x00FB, 0x00FC, 0x0169, 0x016B, 0x016D, 0x016F, 0x0171, 0x0173, 0x01B0,
      0x01D4, 0x01D6, 0x01D8, 0x01DA, 0x01DC, 0x0215, 0x0217, 0x0289, 0x1D64, 0x1D99, 0x1E73,
      0x1E75, 0x1E77, 0x1E79, 0x1E7B, 0x1EE5, 0x1EE7, 0x1EE9, 0x1EEB, 0x1EED, 0x1EEF, 0x1EF1,
      0x24E4, 0xFF55], [0x75]),
  -- 1390-1394: (u)
    ([0x24B0], [0x28, 0x75, 0x29]),
  -- 1395-1398: ue
    ([0x1D6B], [0x75, 0x65]),
  -- 1399-1410: V
    ([0x01B2, 0x0245, 0x1D20, 0x1E7C, 0x1E7E, 0x1EFC, 0x24CB, 0xA75E, 0xA768, 0xFF36], [0x56]),
  -- 1411-1423: v
    ([0x028B, 0x028C, 0x1D65, 0x1D8C, 0x1E7D, 0x1E7F, 0x24E5, 0x2C71, 0x2C74, 0xA75F, 0xFF56
      ], [0x76]),
  -- 1424-1427: VY
    ([0xA760], [0x56, 0x59]),
  -- 1428-1432: (v)
    ([0x24B1], [0x28, 0x76, 0x29]),
  -- 1433-1436: vy
    ([0xA761], [0x76, 0x79]),
  -- 1437-1449: W
    ([0x0174, 0x01F7, 0x1D21, 0x1E80, 0x1E82, 0x1E84, 0x1E86, 0x1E88, 0x24CC, 0x2C72, 0xFF37
      ], [0x57]),
  -- 1450-1463: w
    ([0x0175, 0x01BF, 0x028D, 0x1E81, 0x1E83, 0x1E85, 0x1E87, 0x1E89, 0x1E98, 0x24E6, 0x2C73,
      0xFF57], [0x77]),
  -- 1464-1468: (w)
    ([0x24B2], [0x28, 0x77, 0x29]),
  -- 1469-1474: X
    ([0x1E8A, 0x1E8C, 0x24CD, 0xFF38], [0x58]),
  -- 1475-1482: x
    ([0x1D8D, 0x1E8B, 0x1E8D, 0x2093, 0x24E7, 0xFF58], [0x78]),
  -- 1483-1487: (x)
    ([0x24B3], [0x28, 0x78, 0x29]),
  -- 1488-1504: Y
    ([0x00DD, 0x0176, 0x0178, 0x01B3, 0x0232, 0x024E, 0x028F, 0x1E8E, 0x1EF2, 0x1EF4, 0x1EF6,
      0x1EF8, 0x1EFE, 0x24CE, 0xFF39], [0x59]),
  -- 1505-1522: y
    ([0x00FD, 0x00FF, 0x0177, 0x01B4, 0x0233, 0x024F, 0x028E, 0x1E8F, 0x1E99, 0x1EF3, 0x1EF5,
      0x1EF7, 0x1EF9, 0x1EFF, 0x24E8, 0xFF59], [0x79]),
  -- 1523-1527: (y)
    ([0x24B4], [0x28, 0x79, 0x29]),
  -- 1528-1543: Z
    ([0x0179, 0x017B, 0x017D, 0x01B5, 0x021C, 0x0224, 0x1D22, 0x1E90, 0x1E92, 0x1E94, 0x24CF,
      0x2C6B, 0xA762, 0xFF3A], [0x5A]),
  -- 1544-1563: z
    ([0x017A, 0x017C, 0x017E, 0x01B6, 0x021D, 0x0225, 0x0240, 0x0290, 0x0291, 0x1D76, 0x1D8E,
      0x1E91, 0x1E93, 0x1E95, 0x24E9, 0x2C6C, 0xA763, 0xFF5A], [0x7A]),
  -- 1564-1568: (z)
    ([0x24B5], [0x28, 0x7A, 0x29]),
  -- 1569-1575: 0
    ([0x2070, 0x2080, 0x24EA, 0x24FF, 0xFF10], [0x30]),
  -- 1576-1585: 1
    ([0x00B9, 0x2081, 0x2460, 0x24F5, 0x2776, 0x2780, 0x278A, 0xFF11], [0x31]),
  -- 1586-1589: 1.
    ([0x2488], [0x31, 0x2E]),
  -- 1590-1594: (1)
    ([0x2474], [0x28, 0x31, 0x29]),
  -- 1595-1604: 2
    ([0x00B2, 0x2082, 0x2461, 0x24F6, 0x2777, 0x2781, 0x278B, 0xFF12], [0x32]),
  -- 1605-1608: 2.
    ([0x2489], [0x32, 0x2E]),
  -- 1609-1613: (2)
    ([0x2475], [0x28, 0x32, 0x29]),
  -- 1614-1623: 3
    ([0x00B3, 0x2083, 0x2462, 0x24F7, 0x2778, 0x2782, 0x278C, 0xFF13], [0x33]),
  -- 1624-1627: 3.
    ([0x248A], [0x33, 0x2E]),
  -- 1628-1632: (3)
    ([0x2476], [0x28, 0x33, 0x29]),
  -- 1633-1642: 4
    ([0x2074, 0x2084, 0x2463, 0x24F8, 0x2779, 0x2783, 0x278D, 0xFF14], [0x34]),
  -- 1643-1646: 4.
    ([0x248B], [0x34, 0x2E]),
  -- 1647-1651: (4)
    ([0x2477], [0x28, 0x34, 0x29]),
  -- 1652-1661: 5
    ([0x2075, 0x2085, 0x2464, 0x24F9, 0x277A, 0x2784, 0x278E, 0xFF15], [0x35]),
  -- 1662-1665: 5.
    ([0x248C], [0x35, 0x2E]),
  -- 1666-1670: (5)
    ([0x2478], [0x28, 0x35, 0x29]),
  -- 1671-1680: 6
    ([0x2076, 0x2086, 0x2465, 0x24FA, 0x277B, 0x2785, 0x278F, 0xFF16], [0x36]),
  -- 1681-1684: 6.
    ([0x248D], [0x36, 0x2E]),
  -- 1685-1689: (6)
    ([0x2479], [0x28, 0x36, 0x29]),
  -- 1690-1699: 7
    ([0x2077, 0x2087, 0x2466, 0x24FB, 0x277C, 0x2786, 0x2790, 0xFF17], [0x37]),
  -- 1700-1703: 7.
    ([0x248E], [0x37, 0x2E]),
  -- 1704-1708: (7)
    ([0x247A], [0x28, 0x37, 0x29]),
  -- 1709-1718: 8
    ([0x2078, 0x2088, 0x2467, 0x24FC, 0x277D, 0x2787, 0x2791, 0xFF18], [0x38]),
  -- 1719-1722: 8.
    ([0x248F], [0x38, 0x2E]),
  -- 1723-1727: (8)
    ([0x247B], [0x28, 0x38, 0x29]),
  -- 1728-1737: 9
    ([0x2079, 0x2089, 0x2468, 0x24FD, 0x277E, 0x2788, 0x2792, 0xFF19], [0x39]),
  -- 1738-1741: 9.
    ([0x2490], [0x39, 0x2E]),
  -- 1742-1746: (9)
    ([0x247C], [0x28, 0x39, 0x29]),
  -- 1747-1754: 10
    ([0x2469, 0x24FE, 0x277F, 0x2789, 0x2793], [0x31, 0x30]),
  -- 1755-1759: 10.
    ([0x2491], [0x31, 0x30, 0x2E]),
  -- 1760-1765: (10)
    ([0x247D], [0x28, 0x31, 0x30, 0x29]),
  -- 1766-1770: 11
    ([0x246A, 0x24EB], [0x31, 0x31]),
  -- 1771-1775: 11.
    ([0x2492], [0x31, 0x31, 0x2E]),
  -- 1776-1781: (11)
    ([0x247E], [0x28, 0x31, 0x31, 0x29]),
  -- 1782-1786: 12
    ([0x246B, 0x24EC], [0x31, 0x32]),
  -- 1787-1791: 12.
    ([0x2493], [0x31, 0x32, 0x2E]),
  -- 1792-1797: (12)
    ([0x247F], [0x28, 0x31, 0x32, 0x29]),
  -- 1798-1802: 13
    ([0x246C, 0x24ED], [0x31, 0x33]),
  -- 1803-1807: 13.
    ([0x2494], [0x31, 0x33, 0x2E]),
  -- 1808-1813: (13)
    ([0x2480], [0x28, 0x31, 0x33, 0x29]),
  -- 1814-1818: 14
    ([0x246D, 0x24EE], [0x31, 0x34]),
  -- 1819-1823: 14.
    ([0x2495], [0x31, 0x34, 0x2E]),
  -- 1824-1829: (14)
    ([0x2481], [0x28, 0x31, 0x34, 0x29]),
  -- 1830-1834: 15
    ([0x246E, 0x24EF], [0x31, 0x35]),
  -- 1835-1839: 15.
    ([0x2496], [0x31, 0x35, 0x2E]),
  -- 1840-1845: (15)
    ([0x2482], [0x28, 0x31, 0x35, 0x29]),
  -- 1846-1850: 16
    ([0x246F, 0x24F0], [0x31, 0x36]),
  -- 1851-1855: 16.
    ([0x2497], [0x31, 0x36, 0x2E]),
  -- 1856-1861: (16)
    ([0x2483], [0x28, 0x31, 0x36, 0x29]),
  -- 1862-1866: 17
    ([0x2470, 0x24F1], [0x31, 0x37]),
  -- 1867-1871: 17.
    ([0x2498], [0x31, 0x37, 0x2E]),
  -- 1872-1877: (17)
    ([0x2484], [0x28, 0x31, 0x37, 0x29]),
  -- 1878-1882: 18
    ([0x2471, 0x24F2], [0x31, 0x38]),
  -- 1883-1887: 18.
    ([0x2499], [0x31, 0x38, 0x2E]),
  -- 1888-1893: (18)
    ([0x2485], [0x28, 0x31, 0x38, 0x29]),
  -- 1894-1898: 19
    ([0x2472, 0x24F3], [0x31, 0x39]),
  -- 1899-1903: 19.
    ([0x249A], [0x31, 0x39, 0x2E]),
  -- 1904-1909: (19)
    ([0x2486], [0x28, 0x31, 0x39, 0x29]),
  -- 1910-1914: 20
    ([0x2473, 0x24F4], [0x32, 0x30]),
  -- 1915-1919: 20.
    ([0x249B], [0x32, 0x30, 0x2E]),
  -- 1920-1925: (20)
    ([0x2487], [0x28, 0x32, 0x30, 0x29]),
  -- 1926-1939: "
    ([0x00AB, 0x00BB, 0x201C, 0x201D, 0x201E, 0x2033, 0x2036, 0x275D, 0x275E, 0x276E, 0x276F,
      0xFF02], [0x22]),
  -- 1940-1952: '
    ([0x2018, 0x2019, 0x201A, 0x201B, 0x2032, 0x2035, 0x2039, 0x203A, 0x275B, 0x275C, 0xFF07
      ], [0x27]),
  -- 1953-1962: -
    ([0x2010, 0x2011, 0x2012, 0x2013, 0x2014, 0x207B, 0x208B, 0xFF0D], [0x2D]),
  -- 1963-1967: [
    ([0x2045, 0x2772, 0xFF3B], [0x5B]),
  -- 1968-1972: ]
    ([0x2046, 0x2773, 0xFF3D], [0x5D]),
  -- 1973-1979: (
    ([0x207D, 0x208D, 0x2768, 0x276A, 0xFF08], [0x28]),
  -- 1980-1983: ((
    ([0x2E28], [0x28, 0x28]),
  -- 1984-1990: )
    ([0x207E, 0x208E, 0x2769, 0x276B, 0xFF09], [0x29]),
  -- 1991-1994: ))
    ([0x2E29], [0x29, 0x29]),
  -- 1995-1999: <
    ([0x276C, 0x2770, 0xFF1C], [0x3C]),
  -- 2000-2004: >
    ([0x276D, 0x2771, 0xFF1E], [0x3E]),
  -- 2005-2008: {
    ([0x2774, 0xFF5B], [0x7B]),
  -- 2009-2012: }
    ([0x2775, 0xFF5D], [0x7D]),
  -- 2013-2017: +
    ([0x207A, 0x208A, 0xFF0B], [0x2B]),
  -- 2018-2022: =
    ([0x207C, 0x208C, 0xFF1D], [0x3D]),
  -- 2023-2025: !
    ([0xFF01], [0x21]),
  -- 2026-2029: !!
    ([0x203C], [0x21, 0x21]),
  -- 2030-2033: !?
    ([0x2049], [0x21, 0x3F]),
  -- 2034-2036: #
    ([0xFF03], [0x23]),
  -- 2037-2039: $
    ([0xFF04], [0x24]),
  -- 2040-2043: %
    ([0x2052, 0xFF05], [0x25]),
  -- 2044-2046: &
    ([0xFF06], [0x26]),
  -- 2047-2050: *
    ([0x204E, 0xFF0A], [0x2A]),
  -- 2051-2053: ,
    ([0xFF0C], [0x2C]),
  -- 2054-2056: .
    ([0xFF0E], [0x2E]),
  -- 2057-2060: /
    ([0x2044, 0xFF0F], [0x2F]),
  -- 2061-2063: :
    ([0xFF1A], [0x3A]),
  -- 2064-2067: ;
    ([0x204F, 0xFF1B], [0x3B]),
  -- 2068-2070: ?
    ([0xFF1F], [0x3F]),
  -- 2071-2074: ??
    ([0x2047], [0x3F, 0x3F]),
  -- 2075-2078: ?!
    ([0x2048], [0x3F, 0x21]),
  -- 2079-2081: @
    ([0xFF20], [0x40]),
  -- 2082-2084: \
    ([0xFF3C], [0x5C]),
  -- 2085-2088: ^
    ([0x2038, 0xFF3E], [0x5E]),
  -- 2089-2091: _
    ([0xFF3F], [0x5F]),
  -- 2092-2095: ~
    ([0x2053, 0xFF5E], [0x7E])]

end Jargon
