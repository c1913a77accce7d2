import Verif.Proofs.CodePointProg
import Verif.Model.UnicodeChar32

/-! Certificates: the intervals (given by their last elements) on which each predicate is constant. -/
namespace Verif.Proofs.CodePoint.Char32
open Verif.Model.CodePoint Verif.Model.CodePoint.Char32 Verif.Spec

def isAsciiCodePointEnds : List Nat := [
  0x7F, 0xFFFFFFFF]

def isAsciiHyphenEnds : List Nat := [
  0x2C, 0x2D, 0xFFFFFFFF]

def isAsciiLetterEnds : List Nat := [
  0x40, 0x5A, 0x60, 0x7A, 0xFFFFFFFF]

def isAsciiLowercaseEnds : List Nat := [
  0x60, 0x7A, 0xFFFFFFFF]

def isAsciiNumberEnds : List Nat := [
  0x2F, 0x39, 0xFFFFFFFF]

def isAsciiUppercaseEnds : List Nat := [
  0x40, 0x5A, 0xFFFFFFFF]

def isAsciiWhitespaceEnds : List Nat := [
  0x8, 0xD, 0x1F, 0x20, 0xFFFFFFFF]

def isNonAsciiCodePointEnds : List Nat := [
  0x7F, 0x10FFFF, 0xFFFFFFFF]

def isNonAsciiHyphenEnds : List Nat := [
  0xAC, 0xAD, 0x589, 0x58A, 0x8A2, 0x1493, 0x1805, 0x1806, 0x188E, 0x1C89, 0x200F, 0x2011, 0x2084, 0x2C75, 0x2E16,
  0x2E17, 0x30FA, 0x30FB, 0x346B, 0xFB71, 0xFE62, 0xFE63, 0xFF0C, 0xFF0D, 0xFF64, 0xFF65, 0xFFFFFFFF]

def isNonAsciiLetterEnds : List Nat := [
  0xA9, 0xAA, 0xB4, 0xB5, 0xB9, 0xBA, 0xBF, 0xD6, 0xD7, 0xE9, 0xF6, 0xF7, 0x129, 0x169, 0x1A9, 0x1E9, 0x229, 0x269,
  0x2A9, 0x2C1, 0x2C5, 0x2D1, 0x2DF, 0x2E4, 0x2E9, 0x2EB, 0x2EC, 0x2ED, 0x2EE, 0x329, 0x369, 0x36F, 0x374, 0x375,
  0x377, 0x379, 0x37D, 0x37E, 0x37F, 0x385, 0x386, 0x387, 0x38A, 0x38B, 0x38C, 0x38D, 0x3A1, 0x3A2, 0x3A9, 0x3E9,
  0x3F5, 0x3F6, 0x429, 0x469, 0x481, 0x489, 0x4A9, 0x4E9, 0x529, 0x52F, 0x530, 0x556, 0x558, 0x559, 0x55F, 0x569,
  0x588, 0x5A9, 0x5CF, 0x5E9, 0x5EA, 0x5EE, 0x5F2, 0x61F, 0x629, 0x64A, 0x669, 0x66D, 0x66F, 0x670, 0x6A9, 0x6D3,
  0x6D4, 0x6D5, 0x6E4, 0x6E6, 0x6E9, 0x6ED, 0x6EF, 0x6F9, 0x6FC, 0x6FE, 0x6FF, 0x70F, 0x710, 0x711, 0x729, 0x72F,
  0x74C, 0x769, 0x7A5, 0x7A9, 0x7B0, 0x7B1, 0x7C9, 0x7E9, 0x7EA, 0x7F3, 0x7F5, 0x7F9, 0x7FA, 0x7FF, 0x815, 0x819,
  0x81A, 0x823, 0x824, 0x827, 0x828, 0x829, 0x83F, 0x858, 0x85F, 0x869, 0x86A, 0x86F, 0x887, 0x888, 0x88E, 0x89F,
  0x8A9, 0x8C9, 0x8E9, 0x903, 0x929, 0x939, 0x93C, 0x93D, 0x94F, 0x950, 0x957, 0x961, 0x969, 0x970, 0x980, 0x984,
  0x98C, 0x98E, 0x990, 0x992, 0x9A8, 0x9A9, 0x9B0, 0x9B1, 0x9B2, 0x9B5, 0x9B9, 0x9BC, 0x9BD, 0x9CD, 0x9CE, 0x9DB,
  0x9DD, 0x9DE, 0x9E1, 0x9E9, 0x9EF, 0x9F1, 0x9FB, 0x9FC, 0xA04, 0xA0A, 0xA0E, 0xA10, 0xA12, 0xA28, 0xA29, 0xA30,
  0xA31, 0xA33, 0xA34, 0xA36, 0xA37, 0xA39, 0xA58, 0xA5C, 0xA5D, 0xA5E, 0xA69, 0xA71, 0xA74, 0xA84, 0xA8D, 0xA8E,
  0xA91, 0xA92, 0xAA8, 0xAA9, 0xAB0, 0xAB1, 0xAB3, 0xAB4, 0xAB9, 0xABC, 0xABD, 0xACF, 0xAD0, 0xADF, 0xAE1, 0xAE9,
  0xAF8, 0xAF9, 0xB04, 0xB0C, 0xB0E, 0xB10, 0xB12, 0xB28, 0xB29, 0xB30, 0xB31, 0xB33, 0xB34, 0xB39, 0xB3C, 0xB3D,
  0xB5B, 0xB5D, 0xB5E, 0xB61, 0xB69, 0xB70, 0xB71, 0xB82, 0xB83, 0xB84, 0xB8A, 0xB8D, 0xB90, 0xB91, 0xB95, 0xB98,
  0xB9A, 0xB9B, 0xB9C, 0xB9D, 0xB9F, 0xBA2, 0xBA4, 0xBA7, 0xBA9, 0xBAA, 0xBAD, 0xBB9, 0xBCF, 0xBD0, 0xBE9, 0xC04,
  0xC0C, 0xC0D, 0xC10, 0xC11, 0xC28, 0xC29, 0xC39, 0xC3C, 0xC3D, 0xC57, 0xC5A, 0xC5C, 0xC5D, 0xC5F, 0xC61, 0xC69,
  0xC7F, 0xC80, 0xC84, 0xC8C, 0xC8D, 0xC90, 0xC91, 0xCA8, 0xCA9, 0xCB3, 0xCB4, 0xCB9, 0xCBC, 0xCBD, 0xCDC, 0xCDE,
  0xCDF, 0xCE1, 0xCE9, 0xCF0, 0xCF2, 0xD03, 0xD0C, 0xD0D, 0xD10, 0xD11, 0xD29, 0xD36, 0xD3A, 0xD3C, 0xD3D, 0xD4D,
  0xD4E, 0xD53, 0xD56, 0xD5E, 0xD61, 0xD76, 0xD79, 0xD7F, 0xD84, 0xD96, 0xD99, 0xDB1, 0xDB2, 0xDB6, 0xDBB, 0xDBC,
  0xDBD, 0xDBF, 0xDC6, 0xDF6, 0xE00, 0xE30, 0xE31, 0xE33, 0xE36, 0xE3F, 0xE46, 0xE76, 0xE80, 0xE82, 0xE83, 0xE84,
  0xE85, 0xE8A, 0xE8B, 0xEA3, 0xEA4, 0xEA5, 0xEA6, 0xEB0, 0xEB1, 0xEB3, 0xEB6, 0xEBC, 0xEBD, 0xEBF, 0xEC4, 0xEC5,
  0xEC6, 0xEDB, 0xEDF, 0xEF6, 0xEFF, 0xF00, 0xF36, 0xF3F, 0xF47, 0xF48, 0xF6C, 0xF76, 0xF87, 0xF8C, 0xFB6, 0xFF6,
  0xFFF, 0x102A, 0x1036, 0x103E, 0x103F, 0x104F, 0x1055, 0x1059, 0x105D, 0x1060, 0x1061, 0x1064, 0x1066, 0x106D,
  0x1070, 0x1074, 0x1076, 0x1081, 0x108D, 0x108E, 0x109F, 0x10B6, 0x10C5, 0x10C6, 0x10C7, 0x10CC, 0x10CD, 0x10CF,
  0x10F6, 0x10FA, 0x10FB, 0x1136, 0x1176, 0x11B6, 0x11F6, 0x1236, 0x1248, 0x1249, 0x124D, 0x124F, 0x1256, 0x1257,
  0x1258, 0x1259, 0x125D, 0x125F, 0x1276, 0x1288, 0x1289, 0x128D, 0x128F, 0x12B0, 0x12B1, 0x12B5, 0x12B6, 0x12B7,
  0x12BE, 0x12BF, 0x12C0, 0x12C1, 0x12C5, 0x12C7, 0x12D6, 0x12D7, 0x12F6, 0x1310, 0x1311, 0x1315, 0x1317, 0x1336,
  0x135A, 0x1376, 0x137F, 0x138F, 0x139F, 0x13B6, 0x13F5, 0x13F6, 0x13F7, 0x13FD, 0x1400, 0x1436, 0x1476, 0x14B6,
  0x14F6, 0x1536, 0x1576, 0x15B6, 0x15F6, 0x1636, 0x166C, 0x166E, 0x1676, 0x167F, 0x1680, 0x169A, 0x169F, 0x16B6,
  0x16EA, 0x16F0, 0x16F6, 0x16F8, 0x16FF, 0x1711, 0x171E, 0x1731, 0x1736, 0x173F, 0x1751, 0x175F, 0x176C, 0x176D,
  0x1770, 0x1776, 0x177F, 0x17B3, 0x17B6, 0x17D6, 0x17D7, 0x17DB, 0x17DC, 0x17F6, 0x181F, 0x1836, 0x1876, 0x1878,
  0x187F, 0x1884, 0x1886, 0x18A8, 0x18A9, 0x18AA, 0x18AF, 0x18B6, 0x18F5, 0x18F6, 0x18FF, 0x191E, 0x1936, 0x194F,
  0x196D, 0x196F, 0x1974, 0x1976, 0x197F, 0x19AB, 0x19AF, 0x19B6, 0x19C3, 0x19C9, 0x19FF, 0x1A03, 0x1A16, 0x1A1F,
  0x1A43, 0x1A54, 0x1A83, 0x1AA6, 0x1AA7, 0x1AC3, 0x1B03, 0x1B04, 0x1B33, 0x1B43, 0x1B44, 0x1B4C, 0x1B82, 0x1B83,
  0x1BA0, 0x1BAD, 0x1BAF, 0x1BB9, 0x1BC3, 0x1BE5, 0x1BFF, 0x1C03, 0x1C23, 0x1C43, 0x1C4C, 0x1C4F, 0x1C59, 0x1C7D,
  0x1C7F, 0x1C83, 0x1C88, 0x1C8F, 0x1CBA, 0x1CBC, 0x1CBF, 0x1CC3, 0x1CE8, 0x1CEC, 0x1CED, 0x1CF3, 0x1CF4, 0x1CF6,
  0x1CF9, 0x1CFA, 0x1CFF, 0x1D03, 0x1D43, 0x1D83, 0x1DBF, 0x1DC3, 0x1DFF, 0x1E03, 0x1E43, 0x1E83, 0x1EC3, 0x1F03,
  0x1F15, 0x1F17, 0x1F1D, 0x1F1F, 0x1F43, 0x1F45, 0x1F47, 0x1F4D, 0x1F4F, 0x1F57, 0x1F58, 0x1F59, 0x1F5A, 0x1F5B,
  0x1F5C, 0x1F5D, 0x1F5E, 0x1F7D, 0x1F7F, 0x1F83, 0x1FB4, 0x1FB5, 0x1FBC, 0x1FBD, 0x1FBE, 0x1FC1, 0x1FC3, 0x1FC4,
  0x1FC5, 0x1FCC, 0x1FCF, 0x1FD3, 0x1FD5, 0x1FDB, 0x1FDF, 0x1FEC, 0x1FF1, 0x1FF4, 0x1FF5, 0x1FFC, 0x2003, 0x2043,
  0x2070, 0x2071, 0x207E, 0x207F, 0x2083, 0x208F, 0x209C, 0x20C3, 0x2101, 0x2102, 0x2103, 0x2106, 0x2107, 0x2109,
  0x2113, 0x2114, 0x2115, 0x2118, 0x211D, 0x2123, 0x2124, 0x2125, 0x2126, 0x2127, 0x2128, 0x2129, 0x212D, 0x212E,
  0x2139, 0x213B, 0x213F, 0x2143, 0x2144, 0x2149, 0x214D, 0x214E, 0x2182, 0x2183, 0x2184, 0x2650, 0x2BFF, 0x2C3F,
  0x2C7F, 0x2CBF, 0x2CE4, 0x2CEA, 0x2CEE, 0x2CF1, 0x2CF3, 0x2CFF, 0x2D25, 0x2D26, 0x2D27, 0x2D2C, 0x2D2D, 0x2D2F,
  0x2D3F, 0x2D67, 0x2D6E, 0x2D6F, 0x2D7F, 0x2D96, 0x2D9F, 0x2DA6, 0x2DA7, 0x2DAE, 0x2DAF, 0x2DB6, 0x2DB7, 0x2DBE,
  0x2DBF, 0x2DC6, 0x2DC7, 0x2DCE, 0x2DCF, 0x2DD6, 0x2DD7, 0x2DDE, 0x2DFF, 0x2E2E, 0x2E2F, 0x2E3F, 0x2E7F, 0x2EBF,
  0x2EFF, 0x2F3F, 0x2F7F, 0x2FBF, 0x2FFF, 0x3004, 0x3006, 0x3030, 0x3035, 0x303A, 0x303C, 0x303F, 0x3040, 0x307F,
  0x3096, 0x309C, 0x309F, 0x30A0, 0x30BF, 0x30FA, 0x30FB, 0x30FF, 0x3104, 0x312F, 0x3130, 0x313F, 0x317F, 0x318E,
  0x319F, 0x31BF, 0x31EF, 0x31FF, 0x32DD, 0x33FF, 0x3F6A, 0x4BF7, 0x4DBF, 0x4DFF, 0x5884, 0xA3D2, 0xA412, 0xA452,
  0xA48C, 0xA492, 0xA4CF, 0xA4D2, 0xA4FD, 0xA4FF, 0xA512, 0xA552, 0xA592, 0xA5D2, 0xA60C, 0xA60F, 0xA612, 0xA61F,
  0xA629, 0xA62B, 0xA63F, 0xA652, 0xA66E, 0xA67E, 0xA692, 0xA69D, 0xA69F, 0xA6D2, 0xA6E5, 0xA712, 0xA716, 0xA71F,
  0xA721, 0xA752, 0xA788, 0xA78A, 0xA792, 0xA7CA, 0xA7CF, 0xA7D1, 0xA7D2, 0xA7D3, 0xA7D4, 0xA7D9, 0xA7F1, 0xA801,
  0xA802, 0xA805, 0xA806, 0xA80A, 0xA80B, 0xA812, 0xA822, 0xA83F, 0xA852, 0xA873, 0xA881, 0xA892, 0xA8B3, 0xA8D2,
  0xA8F1, 0xA8F7, 0xA8FA, 0xA8FB, 0xA8FC, 0xA8FE, 0xA909, 0xA912, 0xA925, 0xA92F, 0xA946, 0xA952, 0xA95F, 0xA97C,
  0xA983, 0xA992, 0xA9B2, 0xA9CE, 0xA9CF, 0xA9D2, 0xA9DF, 0xA9E4, 0xA9E5, 0xA9EF, 0xA9F9, 0xA9FE, 0xA9FF, 0xAA12,
  0xAA28, 0xAA3F, 0xAA42, 0xAA43, 0xAA4B, 0xAA52, 0xAA5F, 0xAA76, 0xAA79, 0xAA7A, 0xAA7D, 0xAA92, 0xAAAF, 0xAAB0,
  0xAAB1, 0xAAB4, 0xAAB6, 0xAAB8, 0xAABD, 0xAABF, 0xAAC0, 0xAAC1, 0xAAC2, 0xAAD2, 0xAADA, 0xAADD, 0xAADF, 0xAAEA,
  0xAAF1, 0xAAF4, 0xAB00, 0xAB06, 0xAB08, 0xAB0E, 0xAB10, 0xAB12, 0xAB16, 0xAB1F, 0xAB26, 0xAB27, 0xAB2E, 0xAB2F,
  0xAB52, 0xAB5A, 0xAB5B, 0xAB69, 0xAB6F, 0xAB92, 0xABD2, 0xABE2, 0xABFF, 0xAC12, 0xAC52, 0xAC92, 0xACD2, 0xAD12,
  0xAD52, 0xAD92, 0xADD2, 0xAE12, 0xAE52, 0xAE92, 0xAED2, 0xAF12, 0xAF52, 0xAF92, 0xAFD2, 0xB012, 0xB052, 0xB05F,
  0xD606, 0xD7A3, 0xD7AF, 0xD7C6, 0xD7CA, 0xD7FB, 0xE293, 0xEF20, 0xF8FF, 0xF93F, 0xF97F, 0xF9BF, 0xF9FF, 0xFA3F,
  0xFA6D, 0xFA6F, 0xFA7F, 0xFABF, 0xFAD9, 0xFAFF, 0xFB06, 0xFB12, 0xFB17, 0xFB1C, 0xFB1D, 0xFB1E, 0xFB28, 0xFB29,
  0xFB36, 0xFB37, 0xFB3C, 0xFB3D, 0xFB3E, 0xFB3F, 0xFB41, 0xFB42, 0xFB44, 0xFB45, 0xFB7F, 0xFBAD, 0xFBB1, 0xFBD2,
  0xFBED, 0xFC2D, 0xFC6D, 0xFCAD, 0xFCED, 0xFD2D, 0xFD3D, 0xFD4F, 0xFD6D, 0xFD8F, 0xFD91, 0xFDAD, 0xFDC7, 0xFDED,
  0xFDEF, 0xFDFB, 0xFE2D, 0xFE6D, 0xFE6F, 0xFE74, 0xFE75, 0xFEAD, 0xFEED, 0xFEFC, 0xFF20, 0xFF2D, 0xFF3A, 0xFF40,
  0xFF5A, 0xFF65, 0xFF6D, 0xFFAD, 0xFFBE, 0xFFC1, 0xFFC7, 0xFFC9, 0xFFCF, 0xFFD1, 0xFFD7, 0xFFD9, 0xFFDC, 0xFFED,
  0xFFFF, 0x1000B, 0x1000C, 0x10026, 0x10027, 0x1002D, 0x1003A, 0x1003B, 0x1003D, 0x1003E, 0x1004D, 0x1004F,
  0x1005D, 0x1006D, 0x1007F, 0x100AD, 0x100ED, 0x100FA, 0x1012D, 0x1016D, 0x101AD, 0x101ED, 0x1022D, 0x1026D,
  0x1027F, 0x1029C, 0x1029F, 0x102AD, 0x102D0, 0x102ED, 0x102FF, 0x1031F, 0x1032C, 0x1032D, 0x10340, 0x10341,
  0x10349, 0x1034F, 0x1036D, 0x10375, 0x1037F, 0x1039D, 0x1039F, 0x103AD, 0x103C3, 0x103C7, 0x103CF, 0x103ED,
  0x103FF, 0x1042D, 0x1046D, 0x1049D, 0x104AD, 0x104AF, 0x104D3, 0x104D7, 0x104ED, 0x104FB, 0x104FF, 0x10527,
  0x1052D, 0x1052F, 0x10563, 0x1056D, 0x1056F, 0x1057A, 0x1057B, 0x1058A, 0x1058B, 0x10592, 0x10593, 0x10595,
  0x10596, 0x105A1, 0x105A2, 0x105AD, 0x105B1, 0x105B2, 0x105B9, 0x105BA, 0x105BC, 0x105ED, 0x105FF, 0x1062D,
  0x1066D, 0x106AD, 0x106ED, 0x1072D, 0x10736, 0x1073F, 0x10755, 0x1075F, 0x10767, 0x1076D, 0x1077F, 0x10785,
  0x10786, 0x107AD, 0x107B0, 0x107B1, 0x107BA, 0x107ED, 0x107FF, 0x10805, 0x10807, 0x10808, 0x10809, 0x1082D,
  0x10835, 0x10836, 0x10838, 0x1083A, 0x1083B, 0x1083C, 0x1083E, 0x10855, 0x1085F, 0x10876, 0x1087B, 0x1087F,
  0x1089E, 0x108BB, 0x108DF, 0x108F2, 0x108F3, 0x108F5, 0x108FB, 0x108FF, 0x10915, 0x1091F, 0x10939, 0x1093B,
  0x1097B, 0x1097F, 0x109B7, 0x109BB, 0x109BD, 0x109BF, 0x109FB, 0x109FF, 0x10A00, 0x10A0F, 0x10A13, 0x10A14,
  0x10A17, 0x10A18, 0x10A35, 0x10A3B, 0x10A5F, 0x10A7B, 0x10A7C, 0x10A7F, 0x10A9C, 0x10ABB, 0x10ABF, 0x10AC7,
  0x10AC8, 0x10AE4, 0x10AFB, 0x10AFF, 0x10B35, 0x10B3B, 0x10B3F, 0x10B55, 0x10B5F, 0x10B72, 0x10B7B, 0x10B7F,
  0x10B91, 0x10BBB, 0x10BFB, 0x10BFF, 0x10C3B, 0x10C48, 0x10C7B, 0x10C7F, 0x10CB2, 0x10CBB, 0x10CBF, 0x10CF2,
  0x10CFB, 0x10CFF, 0x10D23, 0x10D3B, 0x10D7B, 0x10DBB, 0x10DFB, 0x10E3B, 0x10E7B, 0x10E7F, 0x10EA9, 0x10EAF,
  0x10EB1, 0x10EBB, 0x10EFB, 0x10EFF, 0x10F1C, 0x10F26, 0x10F27, 0x10F2F, 0x10F3B, 0x10F45, 0x10F6F, 0x10F7B,
  0x10F81, 0x10FAF, 0x10FBB, 0x10FC4, 0x10FDF, 0x10FF6, 0x10FFB, 0x11002, 0x11037, 0x1103B, 0x11070, 0x11072,
  0x11074, 0x11075, 0x1107B, 0x11082, 0x110AF, 0x110BB, 0x110CF, 0x110E8, 0x110FB, 0x11102, 0x11126, 0x1113B,
  0x11143, 0x11144, 0x11146, 0x11147, 0x1114F, 0x11172, 0x11175, 0x11176, 0x1117B, 0x11182, 0x111B2, 0x111BB,
  0x111C0, 0x111C4, 0x111D9, 0x111DA, 0x111DB, 0x111DC, 0x111FB, 0x111FF, 0x11211, 0x11212, 0x1122B, 0x1123B,
  0x1123E, 0x11240, 0x1127B, 0x1127F, 0x11286, 0x11287, 0x11288, 0x11289, 0x1128D, 0x1128E, 0x1129D, 0x1129E,
  0x112A8, 0x112AF, 0x112BB, 0x112DE, 0x112FB, 0x11304, 0x1130C, 0x1130E, 0x11310, 0x11312, 0x11328, 0x11329,
  0x11330, 0x11331, 0x11333, 0x11334, 0x11339, 0x1133B, 0x1133C, 0x1133D, 0x1134F, 0x11350, 0x1135C, 0x11361,
  0x1137B, 0x113BB, 0x113FB, 0x113FF, 0x11434, 0x1143B, 0x11446, 0x1144A, 0x1145E, 0x11461, 0x1147B, 0x1147F,
  0x114AF, 0x114BB, 0x114C3, 0x114C5, 0x114C6, 0x114C7, 0x1157F, 0x115AE, 0x115BF, 0x115D7, 0x115DB, 0x115FF,
  0x1162F, 0x1163F, 0x11643, 0x11644, 0x1167F, 0x116AA, 0x116B7, 0x116B8, 0x116BF, 0x116FF, 0x1171A, 0x1173F,
  0x11746, 0x1177F, 0x117BF, 0x117FF, 0x1182B, 0x1183F, 0x1187F, 0x1189F, 0x118BF, 0x118DF, 0x118FE, 0x118FF,
  0x11906, 0x11908, 0x11909, 0x1190B, 0x11913, 0x11914, 0x11916, 0x11917, 0x1192F, 0x1193E, 0x1193F, 0x11940,
  0x11941, 0x1197F, 0x1199F, 0x119A7, 0x119A9, 0x119BF, 0x119D0, 0x119E0, 0x119E1, 0x119E2, 0x119E3, 0x119FF,
  0x11A00, 0x11A0A, 0x11A32, 0x11A39, 0x11A3A, 0x11A3F, 0x11A4F, 0x11A50, 0x11A5B, 0x11A7F, 0x11A89, 0x11A9C,
  0x11A9D, 0x11AAF, 0x11ABF, 0x11AF8, 0x11AFF, 0x11B3F, 0x11B7F, 0x11BBF, 0x11BFF, 0x11C08, 0x11C09, 0x11C2E,
  0x11C3F, 0x11C40, 0x11C71, 0x11C7F, 0x11C8F, 0x11CBF, 0x11CFF, 0x11D06, 0x11D07, 0x11D09, 0x11D0A, 0x11D30,
  0x11D3F, 0x11D45, 0x11D46, 0x11D5F, 0x11D65, 0x11D66, 0x11D68, 0x11D69, 0x11D7F, 0x11D89, 0x11D97, 0x11D98,
  0x11DBF, 0x11DFF, 0x11E3F, 0x11E7F, 0x11EBF, 0x11EDF, 0x11EF2, 0x11EFF, 0x11F01, 0x11F02, 0x11F03, 0x11F10,
  0x11F11, 0x11F33, 0x11F3F, 0x11F7F, 0x11FAF, 0x11FB0, 0x11FBF, 0x11FFF, 0x1203F, 0x1207F, 0x120BF, 0x120FF,
  0x1213F, 0x12154, 0x12399, 0x1247F, 0x12543, 0x12DE1, 0x12F8F, 0x12FF0, 0x12FFF, 0x1342F, 0x13440, 0x13446,
  0x13A6E, 0x143FF, 0x14646, 0x146FB, 0x16015, 0x167FF, 0x1683F, 0x1687F, 0x168BF, 0x168FF, 0x1693F, 0x1697F,
  0x169BF, 0x169FF, 0x16A38, 0x16A3F, 0x16A5E, 0x16A6F, 0x16A7F, 0x16ABE, 0x16ABF, 0x16ACF, 0x16AED, 0x16AFF,
  0x16B2F, 0x16B3F, 0x16B43, 0x16B62, 0x16B77, 0x16B7C, 0x16B7F, 0x16B8F, 0x16CA2, 0x16E3F, 0x16E7F, 0x16EBF,
  0x16EFF, 0x16F3F, 0x16F4A, 0x16F4F, 0x16F50, 0x16F7F, 0x16F92, 0x16F9F, 0x16FBF, 0x16FDF, 0x16FE1, 0x16FE2,
  0x16FE3, 0x16FFF, 0x1703F, 0x1707F, 0x170BF, 0x170FF, 0x1713F, 0x1717F, 0x171BF, 0x171FF, 0x1723F, 0x1727F,
  0x172BF, 0x172FF, 0x1733F, 0x1737F, 0x173BF, 0x173FF, 0x1743F, 0x1747F, 0x174BF, 0x174FF, 0x1753F, 0x1757F,
  0x175BF, 0x175FF, 0x1763F, 0x1767F, 0x176BF, 0x176FF, 0x1773F, 0x1777F, 0x177BF, 0x177FF, 0x1783F, 0x1787F,
  0x178BF, 0x178FF, 0x1792F, 0x185BC, 0x187F7, 0x187FF, 0x18CD5, 0x18CFF, 0x18D08, 0x19249, 0x1AB63, 0x1AFEF,
  0x1AFF3, 0x1AFF4, 0x1AFFB, 0x1AFFC, 0x1AFFE, 0x1AFFF, 0x1B02F, 0x1B06F, 0x1B0AF, 0x1B0EF, 0x1B122, 0x1B12F,
  0x1B131, 0x1B132, 0x1B14F, 0x1B152, 0x1B154, 0x1B155, 0x1B163, 0x1B167, 0x1B16F, 0x1B1AF, 0x1B1EF, 0x1B22F,
  0x1B26F, 0x1B2AF, 0x1B2EF, 0x1B2FB, 0x1B7F0, 0x1BBFF, 0x1BC3F, 0x1BC6A, 0x1BC6F, 0x1BC7C, 0x1BC7F, 0x1BC88,
  0x1BC8F, 0x1BC99, 0x1C47D, 0x1D10A, 0x1D3FF, 0x1D43F, 0x1D454, 0x1D455, 0x1D47F, 0x1D49C, 0x1D49D, 0x1D49F,
  0x1D4A1, 0x1D4A2, 0x1D4A4, 0x1D4A6, 0x1D4A8, 0x1D4AC, 0x1D4AD, 0x1D4B9, 0x1D4BA, 0x1D4BB, 0x1D4BC, 0x1D4BF,
  0x1D4C3, 0x1D4C4, 0x1D4FF, 0x1D505, 0x1D506, 0x1D50A, 0x1D50C, 0x1D514, 0x1D515, 0x1D51C, 0x1D51D, 0x1D539,
  0x1D53A, 0x1D53E, 0x1D53F, 0x1D544, 0x1D545, 0x1D546, 0x1D549, 0x1D550, 0x1D551, 0x1D57F, 0x1D5BF, 0x1D5FF,
  0x1D63F, 0x1D67F, 0x1D6A5, 0x1D6A7, 0x1D6BF, 0x1D6C0, 0x1D6C1, 0x1D6DA, 0x1D6DB, 0x1D6FA, 0x1D6FB, 0x1D6FF,
  0x1D714, 0x1D715, 0x1D734, 0x1D735, 0x1D73F, 0x1D74E, 0x1D74F, 0x1D76E, 0x1D76F, 0x1D77F, 0x1D788, 0x1D789,
  0x1D7A8, 0x1D7A9, 0x1D7BF, 0x1D7C2, 0x1D7C3, 0x1D7CB, 0x1DD97, 0x1DEFF, 0x1DF1E, 0x1DF24, 0x1DF2A, 0x1DF3F,
  0x1DF7F, 0x1DFBF, 0x1DFFF, 0x1E02F, 0x1E03F, 0x1E06D, 0x1E07F, 0x1E0BF, 0x1E0FF, 0x1E12C, 0x1E136, 0x1E13D,
  0x1E13F, 0x1E14D, 0x1E14E, 0x1E17F, 0x1E1BF, 0x1E1FF, 0x1E23F, 0x1E27F, 0x1E28F, 0x1E2AD, 0x1E2BF, 0x1E2EB,
  0x1E2FF, 0x1E33F, 0x1E37F, 0x1E3BF, 0x1E3FF, 0x1E43F, 0x1E47F, 0x1E4BF, 0x1E4CF, 0x1E4EB, 0x1E4FF, 0x1E53F,
  0x1E57F, 0x1E5BF, 0x1E5FF, 0x1E63F, 0x1E67F, 0x1E6BF, 0x1E6FF, 0x1E73F, 0x1E77F, 0x1E7BF, 0x1E7DF, 0x1E7E6,
  0x1E7E7, 0x1E7EB, 0x1E7EC, 0x1E7EE, 0x1E7EF, 0x1E7FE, 0x1E7FF, 0x1E83F, 0x1E87F, 0x1E8BF, 0x1E8C4, 0x1E8FF,
  0x1E93F, 0x1E943, 0x1E94A, 0x1E94B, 0x1EA24, 0x1EDFF, 0x1EE03, 0x1EE04, 0x1EE1F, 0x1EE20, 0x1EE22, 0x1EE23,
  0x1EE24, 0x1EE26, 0x1EE27, 0x1EE28, 0x1EE32, 0x1EE33, 0x1EE37, 0x1EE38, 0x1EE39, 0x1EE3A, 0x1EE3B, 0x1EE3F,
  0x1EE41, 0x1EE42, 0x1EE46, 0x1EE47, 0x1EE48, 0x1EE49, 0x1EE4A, 0x1EE4B, 0x1EE4C, 0x1EE4F, 0x1EE50, 0x1EE52,
  0x1EE53, 0x1EE54, 0x1EE56, 0x1EE57, 0x1EE58, 0x1EE59, 0x1EE5A, 0x1EE5B, 0x1EE5C, 0x1EE5D, 0x1EE5E, 0x1EE5F,
  0x1EE60, 0x1EE62, 0x1EE63, 0x1EE64, 0x1EE66, 0x1EE6A, 0x1EE6B, 0x1EE72, 0x1EE73, 0x1EE77, 0x1EE78, 0x1EE7C,
  0x1EE7D, 0x1EE7E, 0x1EE7F, 0x1EE89, 0x1EE8A, 0x1EE9B, 0x1EEA0, 0x1EEA3, 0x1EEA4, 0x1EEA9, 0x1EEAA, 0x1EEBB,
  0x1F6B1, 0x1FFFF, 0x2033E, 0x2A667, 0x2A6DF, 0x2A6FF, 0x2B2F4, 0x2B739, 0x2B73F, 0x2B81D, 0x2B81F, 0x2BF81,
  0x2CC0E, 0x2CEA1, 0x2CEAF, 0x2D89B, 0x2E528, 0x2EBE0, 0x2F1B5, 0x2F7FF, 0x2FA1D, 0x2FE42, 0x2FFFF, 0x30ACF,
  0x3134A, 0x3134F, 0x3175C, 0x323AF, 0xFFFFFFFF]

def isNonAsciiLowercaseEnds : List Nat := [
  0xA9, 0xAA, 0xB4, 0xB5, 0xB9, 0xBA, 0xDE, 0xE9, 0xF6, 0xF7, 0xFF, 0x100, 0x101, 0x102, 0x103, 0x104, 0x105,
  0x106, 0x107, 0x108, 0x109, 0x10A, 0x10B, 0x10C, 0x10D, 0x10E, 0x10F, 0x110, 0x111, 0x112, 0x113, 0x114, 0x115,
  0x116, 0x117, 0x118, 0x119, 0x11A, 0x11B, 0x11C, 0x11D, 0x11E, 0x11F, 0x120, 0x121, 0x122, 0x123, 0x124, 0x125,
  0x126, 0x127, 0x128, 0x129, 0x12A, 0x12B, 0x12C, 0x12D, 0x12E, 0x12F, 0x130, 0x131, 0x132, 0x133, 0x134, 0x135,
  0x136, 0x138, 0x139, 0x13A, 0x13B, 0x13C, 0x13D, 0x13E, 0x13F, 0x140, 0x141, 0x142, 0x143, 0x144, 0x145, 0x146,
  0x147, 0x149, 0x14A, 0x14B, 0x14C, 0x14D, 0x14E, 0x14F, 0x150, 0x151, 0x152, 0x153, 0x154, 0x155, 0x156, 0x157,
  0x158, 0x159, 0x15A, 0x15B, 0x15C, 0x15D, 0x15E, 0x15F, 0x160, 0x161, 0x162, 0x163, 0x164, 0x165, 0x166, 0x167,
  0x168, 0x169, 0x16A, 0x16B, 0x16C, 0x16D, 0x16E, 0x16F, 0x170, 0x171, 0x172, 0x173, 0x174, 0x175, 0x176, 0x177,
  0x179, 0x17A, 0x17B, 0x17C, 0x17D, 0x180, 0x182, 0x183, 0x184, 0x185, 0x187, 0x188, 0x18B, 0x18D, 0x191, 0x192,
  0x194, 0x195, 0x198, 0x19B, 0x19D, 0x19E, 0x1A0, 0x1A1, 0x1A2, 0x1A3, 0x1A4, 0x1A5, 0x1A7, 0x1A8, 0x1A9, 0x1AB,
  0x1AC, 0x1AD, 0x1AF, 0x1B0, 0x1B3, 0x1B4, 0x1B5, 0x1B6, 0x1B8, 0x1BA, 0x1BC, 0x1BF, 0x1C5, 0x1C6, 0x1C8, 0x1C9,
  0x1CB, 0x1CC, 0x1CD, 0x1CE, 0x1CF, 0x1D0, 0x1D1, 0x1D2, 0x1D3, 0x1D4, 0x1D5, 0x1D6, 0x1D7, 0x1D8, 0x1D9, 0x1DA,
  0x1DB, 0x1DD, 0x1DE, 0x1DF, 0x1E0, 0x1E1, 0x1E2, 0x1E3, 0x1E4, 0x1E5, 0x1E6, 0x1E7, 0x1E8, 0x1E9, 0x1EA, 0x1EB,
  0x1EC, 0x1ED, 0x1EE, 0x1F0, 0x1F2, 0x1F3, 0x1F4, 0x1F5, 0x1F8, 0x1F9, 0x1FA, 0x1FB, 0x1FC, 0x1FD, 0x1FE, 0x1FF,
  0x200, 0x201, 0x202, 0x203, 0x204, 0x205, 0x206, 0x207, 0x208, 0x209, 0x20A, 0x20B, 0x20C, 0x20D, 0x20E, 0x20F,
  0x210, 0x211, 0x212, 0x213, 0x214, 0x215, 0x216, 0x217, 0x218, 0x219, 0x21A, 0x21B, 0x21C, 0x21D, 0x21E, 0x21F,
  0x220, 0x221, 0x222, 0x223, 0x224, 0x225, 0x226, 0x227, 0x228, 0x229, 0x22A, 0x22B, 0x22C, 0x22D, 0x22E, 0x22F,
  0x230, 0x231, 0x232, 0x239, 0x23B, 0x23C, 0x23E, 0x240, 0x241, 0x242, 0x246, 0x247, 0x248, 0x249, 0x24A, 0x24B,
  0x24C, 0x24D, 0x24E, 0x269, 0x293, 0x294, 0x2A9, 0x2B8, 0x2BF, 0x2C1, 0x2DF, 0x2E4, 0x2E9, 0x329, 0x344, 0x345,
  0x369, 0x370, 0x371, 0x372, 0x373, 0x376, 0x377, 0x379, 0x37D, 0x38F, 0x390, 0x3A9, 0x3AB, 0x3CE, 0x3CF, 0x3D1,
  0x3D4, 0x3D7, 0x3D8, 0x3D9, 0x3DA, 0x3DB, 0x3DC, 0x3DD, 0x3DE, 0x3DF, 0x3E0, 0x3E1, 0x3E2, 0x3E3, 0x3E4, 0x3E5,
  0x3E6, 0x3E7, 0x3E8, 0x3E9, 0x3EA, 0x3EB, 0x3EC, 0x3ED, 0x3EE, 0x3F3, 0x3F4, 0x3F5, 0x3F7, 0x3F8, 0x3FA, 0x3FC,
  0x429, 0x42F, 0x45F, 0x460, 0x461, 0x462, 0x463, 0x464, 0x465, 0x466, 0x467, 0x468, 0x469, 0x46A, 0x46B, 0x46C,
  0x46D, 0x46E, 0x46F, 0x470, 0x471, 0x472, 0x473, 0x474, 0x475, 0x476, 0x477, 0x478, 0x479, 0x47A, 0x47B, 0x47C,
  0x47D, 0x47E, 0x47F, 0x480, 0x481, 0x48A, 0x48B, 0x48C, 0x48D, 0x48E, 0x48F, 0x490, 0x491, 0x492, 0x493, 0x494,
  0x495, 0x496, 0x497, 0x498, 0x499, 0x49A, 0x49B, 0x49C, 0x49D, 0x49E, 0x49F, 0x4A0, 0x4A1, 0x4A2, 0x4A3, 0x4A4,
  0x4A5, 0x4A6, 0x4A7, 0x4A8, 0x4A9, 0x4AA, 0x4AB, 0x4AC, 0x4AD, 0x4AE, 0x4AF, 0x4B0, 0x4B1, 0x4B2, 0x4B3, 0x4B4,
  0x4B5, 0x4B6, 0x4B7, 0x4B8, 0x4B9, 0x4BA, 0x4BB, 0x4BC, 0x4BD, 0x4BE, 0x4BF, 0x4C1, 0x4C2, 0x4C3, 0x4C4, 0x4C5,
  0x4C6, 0x4C7, 0x4C8, 0x4C9, 0x4CA, 0x4CB, 0x4CC, 0x4CD, 0x4CF, 0x4D0, 0x4D1, 0x4D2, 0x4D3, 0x4D4, 0x4D5, 0x4D6,
  0x4D7, 0x4D8, 0x4D9, 0x4DA, 0x4DB, 0x4DC, 0x4DD, 0x4DE, 0x4DF, 0x4E0, 0x4E1, 0x4E2, 0x4E3, 0x4E4, 0x4E5, 0x4E6,
  0x4E7, 0x4E8, 0x4E9, 0x4EA, 0x4EB, 0x4EC, 0x4ED, 0x4EE, 0x4EF, 0x4F0, 0x4F1, 0x4F2, 0x4F3, 0x4F4, 0x4F5, 0x4F6,
  0x4F7, 0x4F8, 0x4F9, 0x4FA, 0x4FB, 0x4FC, 0x4FD, 0x4FE, 0x4FF, 0x500, 0x501, 0x502, 0x503, 0x504, 0x505, 0x506,
  0x507, 0x508, 0x509, 0x50A, 0x50B, 0x50C, 0x50D, 0x50E, 0x50F, 0x510, 0x511, 0x512, 0x513, 0x514, 0x515, 0x516,
  0x517, 0x518, 0x519, 0x51A, 0x51B, 0x51C, 0x51D, 0x51E, 0x51F, 0x520, 0x521, 0x522, 0x523, 0x524, 0x525, 0x526,
  0x527, 0x528, 0x529, 0x52A, 0x52B, 0x52C, 0x52D, 0x52E, 0x52F, 0x55F, 0x564, 0x588, 0x89F, 0x1095, 0x10CF,
  0x10FA, 0x10FB, 0x10FF, 0x13F7, 0x13FD, 0x1490, 0x188B, 0x1C7F, 0x1C86, 0x1C88, 0x1CC6, 0x1CFF, 0x1D06, 0x1D46,
  0x1D86, 0x1DBF, 0x1DC6, 0x1E00, 0x1E01, 0x1E02, 0x1E03, 0x1E04, 0x1E05, 0x1E06, 0x1E07, 0x1E08, 0x1E09, 0x1E0A,
  0x1E0B, 0x1E0C, 0x1E0D, 0x1E0E, 0x1E0F, 0x1E10, 0x1E11, 0x1E12, 0x1E13, 0x1E14, 0x1E15, 0x1E16, 0x1E17, 0x1E18,
  0x1E19, 0x1E1A, 0x1E1B, 0x1E1C, 0x1E1D, 0x1E1E, 0x1E1F, 0x1E20, 0x1E21, 0x1E22, 0x1E23, 0x1E24, 0x1E25, 0x1E26,
  0x1E27, 0x1E28, 0x1E29, 0x1E2A, 0x1E2B, 0x1E2C, 0x1E2D, 0x1E2E, 0x1E2F, 0x1E30, 0x1E31, 0x1E32, 0x1E33, 0x1E34,
  0x1E35, 0x1E36, 0x1E37, 0x1E38, 0x1E39, 0x1E3A, 0x1E3B, 0x1E3C, 0x1E3D, 0x1E3E, 0x1E3F, 0x1E40, 0x1E41, 0x1E42,
  0x1E43, 0x1E44, 0x1E45, 0x1E46, 0x1E47, 0x1E48, 0x1E49, 0x1E4A, 0x1E4B, 0x1E4C, 0x1E4D, 0x1E4E, 0x1E4F, 0x1E50,
  0x1E51, 0x1E52, 0x1E53, 0x1E54, 0x1E55, 0x1E56, 0x1E57, 0x1E58, 0x1E59, 0x1E5A, 0x1E5B, 0x1E5C, 0x1E5D, 0x1E5E,
  0x1E5F, 0x1E60, 0x1E61, 0x1E62, 0x1E63, 0x1E64, 0x1E65, 0x1E66, 0x1E67, 0x1E68, 0x1E69, 0x1E6A, 0x1E6B, 0x1E6C,
  0x1E6D, 0x1E6E, 0x1E6F, 0x1E70, 0x1E71, 0x1E72, 0x1E73, 0x1E74, 0x1E75, 0x1E76, 0x1E77, 0x1E78, 0x1E79, 0x1E7A,
  0x1E7B, 0x1E7C, 0x1E7D, 0x1E7E, 0x1E7F, 0x1E80, 0x1E81, 0x1E82, 0x1E83, 0x1E84, 0x1E85, 0x1E86, 0x1E87, 0x1E88,
  0x1E89, 0x1E8A, 0x1E8B, 0x1E8C, 0x1E8D, 0x1E8E, 0x1E8F, 0x1E90, 0x1E91, 0x1E92, 0x1E93, 0x1E94, 0x1E9D, 0x1E9E,
  0x1E9F, 0x1EA0, 0x1EA1, 0x1EA2, 0x1EA3, 0x1EA4, 0x1EA5, 0x1EA6, 0x1EA7, 0x1EA8, 0x1EA9, 0x1EAA, 0x1EAB, 0x1EAC,
  0x1EAD, 0x1EAE, 0x1EAF, 0x1EB0, 0x1EB1, 0x1EB2, 0x1EB3, 0x1EB4, 0x1EB5, 0x1EB6, 0x1EB7, 0x1EB8, 0x1EB9, 0x1EBA,
  0x1EBB, 0x1EBC, 0x1EBD, 0x1EBE, 0x1EBF, 0x1EC0, 0x1EC1, 0x1EC2, 0x1EC3, 0x1EC4, 0x1EC5, 0x1EC6, 0x1EC7, 0x1EC8,
  0x1EC9, 0x1ECA, 0x1ECB, 0x1ECC, 0x1ECD, 0x1ECE, 0x1ECF, 0x1ED0, 0x1ED1, 0x1ED2, 0x1ED3, 0x1ED4, 0x1ED5, 0x1ED6,
  0x1ED7, 0x1ED8, 0x1ED9, 0x1EDA, 0x1EDB, 0x1EDC, 0x1EDD, 0x1EDE, 0x1EDF, 0x1EE0, 0x1EE1, 0x1EE2, 0x1EE3, 0x1EE4,
  0x1EE5, 0x1EE6, 0x1EE7, 0x1EE8, 0x1EE9, 0x1EEA, 0x1EEB, 0x1EEC, 0x1EED, 0x1EEE, 0x1EEF, 0x1EF0, 0x1EF1, 0x1EF2,
  0x1EF3, 0x1EF4, 0x1EF5, 0x1EF6, 0x1EF7, 0x1EF8, 0x1EF9, 0x1EFA, 0x1EFB, 0x1EFC, 0x1EFD, 0x1EFE, 0x1F06, 0x1F07,
  0x1F0F, 0x1F15, 0x1F1F, 0x1F27, 0x1F2F, 0x1F37, 0x1F3F, 0x1F45, 0x1F46, 0x1F4F, 0x1F57, 0x1F5F, 0x1F67, 0x1F6F,
  0x1F7D, 0x1F7F, 0x1F86, 0x1F87, 0x1F8F, 0x1F97, 0x1F9F, 0x1FA7, 0x1FAF, 0x1FB4, 0x1FB5, 0x1FB7, 0x1FBD, 0x1FBE,
  0x1FC1, 0x1FC4, 0x1FC5, 0x1FC6, 0x1FC7, 0x1FCF, 0x1FD3, 0x1FD5, 0x1FD7, 0x1FDF, 0x1FE7, 0x1FF1, 0x1FF4, 0x1FF5,
  0x1FF7, 0x2006, 0x2046, 0x2070, 0x2071, 0x207E, 0x207F, 0x2081, 0x208F, 0x209C, 0x20CF, 0x2109, 0x210A, 0x210D,
  0x210F, 0x2112, 0x2113, 0x212E, 0x212F, 0x2133, 0x2134, 0x2138, 0x2139, 0x213B, 0x213D, 0x2145, 0x2149, 0x214D,
  0x214E, 0x214F, 0x216F, 0x217F, 0x2183, 0x2184, 0x247C, 0x24CF, 0x24E9, 0x2877, 0x2C2F, 0x2C5F, 0x2C60, 0x2C61,
  0x2C64, 0x2C66, 0x2C67, 0x2C68, 0x2C69, 0x2C6A, 0x2C6B, 0x2C6C, 0x2C70, 0x2C71, 0x2C72, 0x2C74, 0x2C75, 0x2C7D,
  0x2C80, 0x2C81, 0x2C82, 0x2C83, 0x2C84, 0x2C85, 0x2C86, 0x2C87, 0x2C88, 0x2C89, 0x2C8A, 0x2C8B, 0x2C8C, 0x2C8D,
  0x2C8E, 0x2C8F, 0x2C90, 0x2C91, 0x2C92, 0x2C93, 0x2C94, 0x2C95, 0x2C96, 0x2C97, 0x2C98, 0x2C99, 0x2C9A, 0x2C9B,
  0x2C9C, 0x2C9D, 0x2C9E, 0x2C9F, 0x2CA0, 0x2CA1, 0x2CA2, 0x2CA3, 0x2CA4, 0x2CA5, 0x2CA6, 0x2CA7, 0x2CA8, 0x2CA9,
  0x2CAA, 0x2CAB, 0x2CAC, 0x2CAD, 0x2CAE, 0x2CAF, 0x2CB0, 0x2CB1, 0x2CB2, 0x2CB3, 0x2CB4, 0x2CB5, 0x2CB6, 0x2CB7,
  0x2CB8, 0x2CB9, 0x2CBA, 0x2CBB, 0x2CBC, 0x2CBD, 0x2CBE, 0x2CBF, 0x2CC0, 0x2CC1, 0x2CC2, 0x2CC3, 0x2CC4, 0x2CC5,
  0x2CC6, 0x2CC7, 0x2CC8, 0x2CC9, 0x2CCA, 0x2CCB, 0x2CCC, 0x2CCD, 0x2CCE, 0x2CCF, 0x2CD0, 0x2CD1, 0x2CD2, 0x2CD3,
  0x2CD4, 0x2CD5, 0x2CD6, 0x2CD7, 0x2CD8, 0x2CD9, 0x2CDA, 0x2CDB, 0x2CDC, 0x2CDD, 0x2CDE, 0x2CDF, 0x2CE0, 0x2CE1,
  0x2CE2, 0x2CE4, 0x2CEB, 0x2CEC, 0x2CED, 0x2CEE, 0x2CF2, 0x2CF3, 0x2CFF, 0x2D25, 0x2D26, 0x2D27, 0x2D2C, 0x2D2D,
  0x306D, 0xA3DC, 0xA640, 0xA641, 0xA642, 0xA643, 0xA644, 0xA645, 0xA646, 0xA647, 0xA648, 0xA649, 0xA64A, 0xA64B,
  0xA64C, 0xA64D, 0xA64E, 0xA64F, 0xA650, 0xA651, 0xA652, 0xA653, 0xA654, 0xA655, 0xA656, 0xA657, 0xA658, 0xA659,
  0xA65A, 0xA65B, 0xA65C, 0xA65D, 0xA65E, 0xA65F, 0xA660, 0xA661, 0xA662, 0xA663, 0xA664, 0xA665, 0xA666, 0xA667,
  0xA668, 0xA669, 0xA66A, 0xA66B, 0xA66C, 0xA66D, 0xA680, 0xA681, 0xA682, 0xA683, 0xA684, 0xA685, 0xA686, 0xA687,
  0xA688, 0xA689, 0xA68A, 0xA68B, 0xA68C, 0xA68D, 0xA68E, 0xA68F, 0xA690, 0xA691, 0xA692, 0xA693, 0xA694, 0xA695,
  0xA696, 0xA697, 0xA698, 0xA699, 0xA69A, 0xA69D, 0xA6C0, 0xA700, 0xA722, 0xA723, 0xA724, 0xA725, 0xA726, 0xA727,
  0xA728, 0xA729, 0xA72A, 0xA72B, 0xA72C, 0xA72D, 0xA72E, 0xA731, 0xA732, 0xA733, 0xA734, 0xA735, 0xA736, 0xA737,
  0xA738, 0xA739, 0xA73A, 0xA73B, 0xA73C, 0xA73D, 0xA73E, 0xA73F, 0xA740, 0xA741, 0xA742, 0xA743, 0xA744, 0xA745,
  0xA746, 0xA747, 0xA748, 0xA749, 0xA74A, 0xA74B, 0xA74C, 0xA74D, 0xA74E, 0xA74F, 0xA750, 0xA751, 0xA752, 0xA753,
  0xA754, 0xA755, 0xA756, 0xA757, 0xA758, 0xA759, 0xA75A, 0xA75B, 0xA75C, 0xA75D, 0xA75E, 0xA75F, 0xA760, 0xA761,
  0xA762, 0xA763, 0xA764, 0xA765, 0xA766, 0xA767, 0xA768, 0xA769, 0xA76A, 0xA76B, 0xA76C, 0xA76D, 0xA76E, 0xA778,
  0xA779, 0xA77A, 0xA77B, 0xA77C, 0xA77E, 0xA77F, 0xA780, 0xA781, 0xA782, 0xA783, 0xA784, 0xA785, 0xA786, 0xA787,
  0xA78B, 0xA78C, 0xA78D, 0xA78E, 0xA790, 0xA791, 0xA792, 0xA795, 0xA796, 0xA797, 0xA798, 0xA799, 0xA79A, 0xA79B,
  0xA79C, 0xA79D, 0xA79E, 0xA79F, 0xA7A0, 0xA7A1, 0xA7A2, 0xA7A3, 0xA7A4, 0xA7A5, 0xA7A6, 0xA7A7, 0xA7A8, 0xA7A9,
  0xA7AE, 0xA7AF, 0xA7B4, 0xA7B5, 0xA7B6, 0xA7B7, 0xA7B8, 0xA7B9, 0xA7BA, 0xA7BB, 0xA7BC, 0xA7BD, 0xA7BE, 0xA7BF,
  0xA7C0, 0xA7C1, 0xA7C2, 0xA7C3, 0xA7C7, 0xA7C8, 0xA7C9, 0xA7CA, 0xA7D0, 0xA7D1, 0xA7D2, 0xA7D3, 0xA7D4, 0xA7D5,
  0xA7D6, 0xA7D7, 0xA7D8, 0xA7D9, 0xA7F1, 0xA7F4, 0xA7F5, 0xA7F6, 0xA7F7, 0xA7FA, 0xA818, 0xA858, 0xA898, 0xA8D8,
  0xA918, 0xA958, 0xA998, 0xA9D8, 0xAA18, 0xAA58, 0xAA98, 0xAAD8, 0xAB18, 0xAB2F, 0xAB58, 0xAB5A, 0xAB5B, 0xAB69,
  0xAB6F, 0xAB98, 0xABBF, 0xABD2, 0xF773, 0xFAFF, 0xFB06, 0xFB12, 0xFB17, 0xFB6E, 0xFF40, 0xFF5A, 0xFFFFFFFF]

def isNonAsciiNumberEnds : List Nat := [
  0x65F, 0x669, 0x69F, 0x6DF, 0x6EF, 0x6F9, 0x71F, 0x75F, 0x79F, 0x7BF, 0x7C9, 0x7DF, 0x81F, 0x85F, 0x89F, 0x8DF,
  0x91F, 0x95F, 0x965, 0x96F, 0x99F, 0x9DF, 0x9E5, 0x9EF, 0xA1F, 0xA5F, 0xA65, 0xA6F, 0xA9F, 0xADF, 0xAE5, 0xAEF,
  0xB1F, 0xB5F, 0xB65, 0xB6F, 0xB9F, 0xBDF, 0xBE5, 0xBEF, 0xC1F, 0xC5F, 0xC65, 0xC6F, 0xC9F, 0xCDF, 0xCE5, 0xCEF,
  0xD1F, 0xD5F, 0xD65, 0xD6F, 0xD9F, 0xDDF, 0xDE5, 0xDEF, 0xE36, 0xE4F, 0xE59, 0xE8F, 0xECF, 0xED9, 0xF0F, 0xF1F,
  0xF29, 0xF4F, 0xF8F, 0xFCF, 0x100F, 0x103F, 0x1049, 0x104F, 0x108F, 0x1099, 0x160D, 0x16ED, 0x16F0, 0x172D,
  0x176D, 0x17AD, 0x17DF, 0x17E9, 0x17ED, 0x180F, 0x1819, 0x182D, 0x186D, 0x18AD, 0x18ED, 0x192D, 0x1945, 0x194F,
  0x196D, 0x19AD, 0x19CF, 0x19D9, 0x19ED, 0x1A2D, 0x1A6D, 0x1A7F, 0x1A89, 0x1A8F, 0x1A99, 0x1AAD, 0x1AED, 0x1B2D,
  0x1B4F, 0x1B59, 0x1B6D, 0x1BAD, 0x1BAF, 0x1BB9, 0x1BED, 0x1C2D, 0x1C3F, 0x1C49, 0x1C4F, 0x1C59, 0x1DE4, 0x215F,
  0x2182, 0x2184, 0x2188, 0x25BB, 0x2D92, 0x3006, 0x3007, 0x3020, 0x3029, 0x3037, 0x303A, 0x3569, 0xA32B, 0xA61F,
  0xA629, 0xA65F, 0xA69F, 0xA6DF, 0xA6E5, 0xA6EF, 0xA71F, 0xA75F, 0xA79F, 0xA7DF, 0xA81F, 0xA85F, 0xA89F, 0xA8CF,
  0xA8D9, 0xA8DF, 0xA8FF, 0xA909, 0xA91F, 0xA95F, 0xA99F, 0xA9CF, 0xA9D9, 0xA9DF, 0xA9EF, 0xA9F9, 0xAA1F, 0xAA4F,
  0xAA59, 0xAB02, 0xABEF, 0xABF9, 0xB2D9, 0xF968, 0xFF0F, 0xFF19, 0x1013F, 0x10174, 0x1017F, 0x101BF, 0x101FF,
  0x1023F, 0x1027F, 0x102BF, 0x102FF, 0x1033F, 0x10340, 0x10341, 0x10349, 0x1034A, 0x1037F, 0x103BF, 0x103D0,
  0x103D5, 0x103FF, 0x1043F, 0x1047F, 0x1049F, 0x104A9, 0x10916, 0x10D2F, 0x10D39, 0x11065, 0x1106F, 0x110ED,
  0x110EF, 0x110F9, 0x1112F, 0x11135, 0x1113F, 0x1116F, 0x111AF, 0x111CF, 0x111D9, 0x111EF, 0x1122F, 0x1126F,
  0x112AF, 0x112EF, 0x112F9, 0x1132F, 0x1136F, 0x113AF, 0x113EF, 0x1142F, 0x1144F, 0x11459, 0x1146F, 0x114AF,
  0x114CF, 0x114D9, 0x114EF, 0x1152F, 0x1156F, 0x115AF, 0x115EF, 0x1162F, 0x1164F, 0x11659, 0x1166F, 0x116AF,
  0x116BF, 0x116C9, 0x116EF, 0x1172F, 0x11739, 0x118C4, 0x118DF, 0x118E9, 0x1191F, 0x1194F, 0x11959, 0x1195F,
  0x1199F, 0x119DF, 0x11A1F, 0x11A5F, 0x11A9F, 0x11ADF, 0x11B1F, 0x11B5F, 0x11B9F, 0x11BDF, 0x11C1F, 0x11C4F,
  0x11C59, 0x11C5F, 0x11C9F, 0x11CDF, 0x11D1F, 0x11D4F, 0x11D59, 0x11D5F, 0x11D9F, 0x11DA9, 0x11DDF, 0x11E1F,
  0x11E5F, 0x11E9F, 0x11EDF, 0x11F1F, 0x11F4F, 0x11F59, 0x1209B, 0x123FF, 0x1246E, 0x12872, 0x1672A, 0x16A5F,
  0x16A69, 0x16ABF, 0x16AC9, 0x16B4F, 0x16B59, 0x16F01, 0x1D4EC, 0x1D7CD, 0x1D7FF, 0x1DCC3, 0x1E13F, 0x1E149,
  0x1E2EF, 0x1E2F9, 0x1E49A, 0x1E4EF, 0x1E4F9, 0x1E94F, 0x1E959, 0x1EC71, 0x1F448, 0x1FBEF, 0x1FBF9, 0xFFFFFFFF]

def isNonAsciiUppercaseEnds : List Nat := [
  0xBF, 0xD6, 0xD7, 0xDE, 0xFF, 0x100, 0x101, 0x102, 0x103, 0x104, 0x105, 0x106, 0x107, 0x108, 0x109, 0x10A, 0x10B,
  0x10C, 0x10D, 0x10E, 0x10F, 0x110, 0x111, 0x112, 0x113, 0x114, 0x115, 0x116, 0x117, 0x118, 0x119, 0x11A, 0x11B,
  0x11C, 0x11D, 0x11E, 0x11F, 0x120, 0x121, 0x122, 0x123, 0x124, 0x125, 0x126, 0x127, 0x128, 0x129, 0x12A, 0x12B,
  0x12C, 0x12D, 0x12E, 0x12F, 0x130, 0x131, 0x132, 0x133, 0x134, 0x135, 0x136, 0x138, 0x139, 0x13A, 0x13B, 0x13C,
  0x13D, 0x13E, 0x13F, 0x140, 0x141, 0x142, 0x143, 0x144, 0x145, 0x146, 0x147, 0x149, 0x14A, 0x14B, 0x14C, 0x14D,
  0x14E, 0x14F, 0x150, 0x151, 0x152, 0x153, 0x154, 0x155, 0x156, 0x157, 0x158, 0x159, 0x15A, 0x15B, 0x15C, 0x15D,
  0x15E, 0x15F, 0x160, 0x161, 0x162, 0x163, 0x164, 0x165, 0x166, 0x167, 0x168, 0x169, 0x16A, 0x16B, 0x16C, 0x16D,
  0x16E, 0x16F, 0x170, 0x171, 0x172, 0x173, 0x174, 0x175, 0x176, 0x177, 0x179, 0x17A, 0x17B, 0x17C, 0x17D, 0x17F,
  0x180, 0x182, 0x183, 0x184, 0x185, 0x187, 0x188, 0x18B, 0x18D, 0x191, 0x192, 0x194, 0x195, 0x198, 0x19B, 0x19D,
  0x19E, 0x1A0, 0x1A1, 0x1A2, 0x1A3, 0x1A4, 0x1A5, 0x1A7, 0x1A8, 0x1A9, 0x1AB, 0x1AC, 0x1AD, 0x1AF, 0x1B0, 0x1B3,
  0x1B4, 0x1B5, 0x1B6, 0x1B8, 0x1BB, 0x1BC, 0x1BF, 0x1C3, 0x1C4, 0x1C6, 0x1C7, 0x1C9, 0x1CA, 0x1CC, 0x1CD, 0x1CE,
  0x1CF, 0x1D0, 0x1D1, 0x1D2, 0x1D3, 0x1D4, 0x1D5, 0x1D6, 0x1D7, 0x1D8, 0x1D9, 0x1DA, 0x1DB, 0x1DD, 0x1DE, 0x1DF,
  0x1E0, 0x1E1, 0x1E2, 0x1E3, 0x1E4, 0x1E5, 0x1E6, 0x1E7, 0x1E8, 0x1E9, 0x1EA, 0x1EB, 0x1EC, 0x1ED, 0x1EE, 0x1F0,
  0x1F1, 0x1F3, 0x1F4, 0x1F5, 0x1F8, 0x1F9, 0x1FA, 0x1FB, 0x1FC, 0x1FD, 0x1FE, 0x1FF, 0x200, 0x201, 0x202, 0x203,
  0x204, 0x205, 0x206, 0x207, 0x208, 0x209, 0x20A, 0x20B, 0x20C, 0x20D, 0x20E, 0x20F, 0x210, 0x211, 0x212, 0x213,
  0x214, 0x215, 0x216, 0x217, 0x218, 0x219, 0x21A, 0x21B, 0x21C, 0x21D, 0x21E, 0x21F, 0x220, 0x221, 0x222, 0x223,
  0x224, 0x225, 0x226, 0x227, 0x228, 0x229, 0x22A, 0x22B, 0x22C, 0x22D, 0x22E, 0x22F, 0x230, 0x231, 0x232, 0x239,
  0x23B, 0x23C, 0x23E, 0x23F, 0x240, 0x241, 0x242, 0x246, 0x247, 0x248, 0x249, 0x24A, 0x24B, 0x24C, 0x24D, 0x24E,
  0x27F, 0x2BF, 0x2FF, 0x33F, 0x36F, 0x370, 0x371, 0x372, 0x375, 0x376, 0x37E, 0x37F, 0x385, 0x386, 0x387, 0x38A,
  0x38B, 0x38C, 0x38D, 0x38F, 0x390, 0x3A1, 0x3A2, 0x3AB, 0x3BF, 0x3CE, 0x3CF, 0x3D1, 0x3D4, 0x3D7, 0x3D8, 0x3D9,
  0x3DA, 0x3DB, 0x3DC, 0x3DD, 0x3DE, 0x3DF, 0x3E0, 0x3E1, 0x3E2, 0x3E3, 0x3E4, 0x3E5, 0x3E6, 0x3E7, 0x3E8, 0x3E9,
  0x3EA, 0x3EB, 0x3EC, 0x3ED, 0x3EE, 0x3F3, 0x3F4, 0x3F6, 0x3F7, 0x3F8, 0x3FA, 0x3FC, 0x3FF, 0x42F, 0x43F, 0x45F,
  0x460, 0x461, 0x462, 0x463, 0x464, 0x465, 0x466, 0x467, 0x468, 0x469, 0x46A, 0x46B, 0x46C, 0x46D, 0x46E, 0x46F,
  0x470, 0x471, 0x472, 0x473, 0x474, 0x475, 0x476, 0x477, 0x478, 0x479, 0x47A, 0x47B, 0x47C, 0x47D, 0x47E, 0x47F,
  0x480, 0x489, 0x48A, 0x48B, 0x48C, 0x48D, 0x48E, 0x48F, 0x490, 0x491, 0x492, 0x493, 0x494, 0x495, 0x496, 0x497,
  0x498, 0x499, 0x49A, 0x49B, 0x49C, 0x49D, 0x49E, 0x49F, 0x4A0, 0x4A1, 0x4A2, 0x4A3, 0x4A4, 0x4A5, 0x4A6, 0x4A7,
  0x4A8, 0x4A9, 0x4AA, 0x4AB, 0x4AC, 0x4AD, 0x4AE, 0x4AF, 0x4B0, 0x4B1, 0x4B2, 0x4B3, 0x4B4, 0x4B5, 0x4B6, 0x4B7,
  0x4B8, 0x4B9, 0x4BA, 0x4BB, 0x4BC, 0x4BD, 0x4BE, 0x4BF, 0x4C1, 0x4C2, 0x4C3, 0x4C4, 0x4C5, 0x4C6, 0x4C7, 0x4C8,
  0x4C9, 0x4CA, 0x4CB, 0x4CC, 0x4CD, 0x4CF, 0x4D0, 0x4D1, 0x4D2, 0x4D3, 0x4D4, 0x4D5, 0x4D6, 0x4D7, 0x4D8, 0x4D9,
  0x4DA, 0x4DB, 0x4DC, 0x4DD, 0x4DE, 0x4DF, 0x4E0, 0x4E1, 0x4E2, 0x4E3, 0x4E4, 0x4E5, 0x4E6, 0x4E7, 0x4E8, 0x4E9,
  0x4EA, 0x4EB, 0x4EC, 0x4ED, 0x4EE, 0x4EF, 0x4F0, 0x4F1, 0x4F2, 0x4F3, 0x4F4, 0x4F5, 0x4F6, 0x4F7, 0x4F8, 0x4F9,
  0x4FA, 0x4FB, 0x4FC, 0x4FD, 0x4FE, 0x4FF, 0x500, 0x501, 0x502, 0x503, 0x504, 0x505, 0x506, 0x507, 0x508, 0x509,
  0x50A, 0x50B, 0x50C, 0x50D, 0x50E, 0x50F, 0x510, 0x511, 0x512, 0x513, 0x514, 0x515, 0x516, 0x517, 0x518, 0x519,
  0x51A, 0x51B, 0x51C, 0x51D, 0x51E, 0x51F, 0x520, 0x521, 0x522, 0x523, 0x524, 0x525, 0x526, 0x527, 0x528, 0x529,
  0x52A, 0x52B, 0x52C, 0x52D, 0x52E, 0x530, 0x539, 0x556, 0x8B3, 0xCAD, 0x109F, 0x10A7, 0x10C5, 0x10C6, 0x10C7,
  0x10CC, 0x10CD, 0x10E7, 0x1127, 0x1167, 0x11A7, 0x11E7, 0x1227, 0x1267, 0x12A7, 0x12E7, 0x1327, 0x1367, 0x139F,
  0x13A7, 0x13E7, 0x13F5, 0x14A1, 0x189B, 0x1C8F, 0x1C95, 0x1CBA, 0x1CBC, 0x1CBF, 0x1CD5, 0x1D15, 0x1D55, 0x1D95,
  0x1DD5, 0x1DFF, 0x1E00, 0x1E01, 0x1E02, 0x1E03, 0x1E04, 0x1E05, 0x1E06, 0x1E07, 0x1E08, 0x1E09, 0x1E0A, 0x1E0B,
  0x1E0C, 0x1E0D, 0x1E0E, 0x1E0F, 0x1E10, 0x1E11, 0x1E12, 0x1E13, 0x1E14, 0x1E15, 0x1E16, 0x1E17, 0x1E18, 0x1E19,
  0x1E1A, 0x1E1B, 0x1E1C, 0x1E1D, 0x1E1E, 0x1E1F, 0x1E20, 0x1E21, 0x1E22, 0x1E23, 0x1E24, 0x1E25, 0x1E26, 0x1E27,
  0x1E28, 0x1E29, 0x1E2A, 0x1E2B, 0x1E2C, 0x1E2D, 0x1E2E, 0x1E2F, 0x1E30, 0x1E31, 0x1E32, 0x1E33, 0x1E34, 0x1E35,
  0x1E36, 0x1E37, 0x1E38, 0x1E39, 0x1E3A, 0x1E3B, 0x1E3C, 0x1E3D, 0x1E3E, 0x1E3F, 0x1E40, 0x1E41, 0x1E42, 0x1E43,
  0x1E44, 0x1E45, 0x1E46, 0x1E47, 0x1E48, 0x1E49, 0x1E4A, 0x1E4B, 0x1E4C, 0x1E4D, 0x1E4E, 0x1E4F, 0x1E50, 0x1E51,
  0x1E52, 0x1E53, 0x1E54, 0x1E55, 0x1E56, 0x1E57, 0x1E58, 0x1E59, 0x1E5A, 0x1E5B, 0x1E5C, 0x1E5D, 0x1E5E, 0x1E5F,
  0x1E60, 0x1E61, 0x1E62, 0x1E63, 0x1E64, 0x1E65, 0x1E66, 0x1E67, 0x1E68, 0x1E69, 0x1E6A, 0x1E6B, 0x1E6C, 0x1E6D,
  0x1E6E, 0x1E6F, 0x1E70, 0x1E71, 0x1E72, 0x1E73, 0x1E74, 0x1E75, 0x1E76, 0x1E77, 0x1E78, 0x1E79, 0x1E7A, 0x1E7B,
  0x1E7C, 0x1E7D, 0x1E7E, 0x1E7F, 0x1E80, 0x1E81, 0x1E82, 0x1E83, 0x1E84, 0x1E85, 0x1E86, 0x1E87, 0x1E88, 0x1E89,
  0x1E8A, 0x1E8B, 0x1E8C, 0x1E8D, 0x1E8E, 0x1E8F, 0x1E90, 0x1E91, 0x1E92, 0x1E93, 0x1E94, 0x1E95, 0x1E9D, 0x1E9E,
  0x1E9F, 0x1EA0, 0x1EA1, 0x1EA2, 0x1EA3, 0x1EA4, 0x1EA5, 0x1EA6, 0x1EA7, 0x1EA8, 0x1EA9, 0x1EAA, 0x1EAB, 0x1EAC,
  0x1EAD, 0x1EAE, 0x1EAF, 0x1EB0, 0x1EB1, 0x1EB2, 0x1EB3, 0x1EB4, 0x1EB5, 0x1EB6, 0x1EB7, 0x1EB8, 0x1EB9, 0x1EBA,
  0x1EBB, 0x1EBC, 0x1EBD, 0x1EBE, 0x1EBF, 0x1EC0, 0x1EC1, 0x1EC2, 0x1EC3, 0x1EC4, 0x1EC5, 0x1EC6, 0x1EC7, 0x1EC8,
  0x1EC9, 0x1ECA, 0x1ECB, 0x1ECC, 0x1ECD, 0x1ECE, 0x1ECF, 0x1ED0, 0x1ED1, 0x1ED2, 0x1ED3, 0x1ED4, 0x1ED5, 0x1ED6,
  0x1ED7, 0x1ED8, 0x1ED9, 0x1EDA, 0x1EDB, 0x1EDC, 0x1EDD, 0x1EDE, 0x1EDF, 0x1EE0, 0x1EE1, 0x1EE2, 0x1EE3, 0x1EE4,
  0x1EE5, 0x1EE6, 0x1EE7, 0x1EE8, 0x1EE9, 0x1EEA, 0x1EEB, 0x1EEC, 0x1EED, 0x1EEE, 0x1EEF, 0x1EF0, 0x1EF1, 0x1EF2,
  0x1EF3, 0x1EF4, 0x1EF5, 0x1EF6, 0x1EF7, 0x1EF8, 0x1EF9, 0x1EFA, 0x1EFB, 0x1EFC, 0x1EFD, 0x1EFE, 0x1F07, 0x1F0F,
  0x1F15, 0x1F17, 0x1F1D, 0x1F27, 0x1F2F, 0x1F37, 0x1F3F, 0x1F47, 0x1F4D, 0x1F55, 0x1F58, 0x1F59, 0x1F5A, 0x1F5B,
  0x1F5C, 0x1F5D, 0x1F5E, 0x1F5F, 0x1F67, 0x1F6F, 0x1F95, 0x1FB7, 0x1FBB, 0x1FC7, 0x1FCB, 0x1FD5, 0x1FD7, 0x1FDB,
  0x1FE7, 0x1FEC, 0x1FF7, 0x1FFB, 0x208F, 0x2101, 0x2102, 0x2106, 0x2107, 0x210A, 0x210D, 0x210F, 0x2112, 0x2114,
  0x2115, 0x2118, 0x211D, 0x2123, 0x2124, 0x2125, 0x2126, 0x2127, 0x2128, 0x2129, 0x212D, 0x212F, 0x2133, 0x213D,
  0x213F, 0x2141, 0x2144, 0x2145, 0x215F, 0x216F, 0x2181, 0x2182, 0x2183, 0x2489, 0x24B5, 0x24CF, 0x2883, 0x2BFF,
  0x2C2F, 0x2C3F, 0x2C5F, 0x2C60, 0x2C61, 0x2C64, 0x2C66, 0x2C67, 0x2C68, 0x2C69, 0x2C6A, 0x2C6B, 0x2C6C, 0x2C70,
  0x2C71, 0x2C72, 0x2C74, 0x2C75, 0x2C7D, 0x2C80, 0x2C81, 0x2C82, 0x2C83, 0x2C84, 0x2C85, 0x2C86, 0x2C87, 0x2C88,
  0x2C89, 0x2C8A, 0x2C8B, 0x2C8C, 0x2C8D, 0x2C8E, 0x2C8F, 0x2C90, 0x2C91, 0x2C92, 0x2C93, 0x2C94, 0x2C95, 0x2C96,
  0x2C97, 0x2C98, 0x2C99, 0x2C9A, 0x2C9B, 0x2C9C, 0x2C9D, 0x2C9E, 0x2C9F, 0x2CA0, 0x2CA1, 0x2CA2, 0x2CA3, 0x2CA4,
  0x2CA5, 0x2CA6, 0x2CA7, 0x2CA8, 0x2CA9, 0x2CAA, 0x2CAB, 0x2CAC, 0x2CAD, 0x2CAE, 0x2CAF, 0x2CB0, 0x2CB1, 0x2CB2,
  0x2CB3, 0x2CB4, 0x2CB5, 0x2CB6, 0x2CB7, 0x2CB8, 0x2CB9, 0x2CBA, 0x2CBB, 0x2CBC, 0x2CBD, 0x2CBE, 0x2CBF, 0x2CC0,
  0x2CC1, 0x2CC2, 0x2CC3, 0x2CC4, 0x2CC5, 0x2CC6, 0x2CC7, 0x2CC8, 0x2CC9, 0x2CCA, 0x2CCB, 0x2CCC, 0x2CCD, 0x2CCE,
  0x2CCF, 0x2CD0, 0x2CD1, 0x2CD2, 0x2CD3, 0x2CD4, 0x2CD5, 0x2CD6, 0x2CD7, 0x2CD8, 0x2CD9, 0x2CDA, 0x2CDB, 0x2CDC,
  0x2CDD, 0x2CDE, 0x2CDF, 0x2CE0, 0x2CE1, 0x2CE2, 0x2CEA, 0x2CEB, 0x2CEC, 0x2CED, 0x2CF1, 0x2CF2, 0x3077, 0xA3C9,
  0xA63F, 0xA640, 0xA641, 0xA642, 0xA643, 0xA644, 0xA645, 0xA646, 0xA647, 0xA648, 0xA649, 0xA64A, 0xA64B, 0xA64C,
  0xA64D, 0xA64E, 0xA64F, 0xA650, 0xA651, 0xA652, 0xA653, 0xA654, 0xA655, 0xA656, 0xA657, 0xA658, 0xA659, 0xA65A,
  0xA65B, 0xA65C, 0xA65D, 0xA65E, 0xA65F, 0xA660, 0xA661, 0xA662, 0xA663, 0xA664, 0xA665, 0xA666, 0xA667, 0xA668,
  0xA669, 0xA66A, 0xA66B, 0xA66C, 0xA67F, 0xA680, 0xA681, 0xA682, 0xA683, 0xA684, 0xA685, 0xA686, 0xA687, 0xA688,
  0xA689, 0xA68A, 0xA68B, 0xA68C, 0xA68D, 0xA68E, 0xA68F, 0xA690, 0xA691, 0xA692, 0xA693, 0xA694, 0xA695, 0xA696,
  0xA697, 0xA698, 0xA699, 0xA69A, 0xA6BF, 0xA6FF, 0xA721, 0xA722, 0xA723, 0xA724, 0xA725, 0xA726, 0xA727, 0xA728,
  0xA729, 0xA72A, 0xA72B, 0xA72C, 0xA72D, 0xA72E, 0xA731, 0xA732, 0xA733, 0xA734, 0xA735, 0xA736, 0xA737, 0xA738,
  0xA739, 0xA73A, 0xA73B, 0xA73C, 0xA73D, 0xA73E, 0xA73F, 0xA740, 0xA741, 0xA742, 0xA743, 0xA744, 0xA745, 0xA746,
  0xA747, 0xA748, 0xA749, 0xA74A, 0xA74B, 0xA74C, 0xA74D, 0xA74E, 0xA74F, 0xA750, 0xA751, 0xA752, 0xA753, 0xA754,
  0xA755, 0xA756, 0xA757, 0xA758, 0xA759, 0xA75A, 0xA75B, 0xA75C, 0xA75D, 0xA75E, 0xA75F, 0xA760, 0xA761, 0xA762,
  0xA763, 0xA764, 0xA765, 0xA766, 0xA767, 0xA768, 0xA769, 0xA76A, 0xA76B, 0xA76C, 0xA76D, 0xA76E, 0xA778, 0xA779,
  0xA77A, 0xA77B, 0xA77C, 0xA77E, 0xA77F, 0xA780, 0xA781, 0xA782, 0xA783, 0xA784, 0xA785, 0xA786, 0xA78A, 0xA78B,
  0xA78C, 0xA78D, 0xA78F, 0xA790, 0xA791, 0xA792, 0xA795, 0xA796, 0xA797, 0xA798, 0xA799, 0xA79A, 0xA79B, 0xA79C,
  0xA79D, 0xA79E, 0xA79F, 0xA7A0, 0xA7A1, 0xA7A2, 0xA7A3, 0xA7A4, 0xA7A5, 0xA7A6, 0xA7A7, 0xA7A8, 0xA7A9, 0xA7AE,
  0xA7AF, 0xA7B4, 0xA7B5, 0xA7B6, 0xA7B7, 0xA7B8, 0xA7B9, 0xA7BA, 0xA7BB, 0xA7BC, 0xA7BD, 0xA7BE, 0xA7BF, 0xA7C0,
  0xA7C1, 0xA7C2, 0xA7C3, 0xA7C7, 0xA7C8, 0xA7C9, 0xA7CF, 0xA7D0, 0xA7D5, 0xA7D6, 0xA7D7, 0xA7D8, 0xA7F4, 0xA7F5,
  0xABBD, 0xFB45, 0xFF20, 0xFF3A, 0xFFFFFFFF]

def isNonAsciiWhitespaceEnds : List Nat := [
  0x84, 0x85, 0x9F, 0xA0, 0x142, 0x160A, 0x167F, 0x1680, 0x16C8, 0x1FB0, 0x1FFF, 0x200A, 0x2027, 0x2029, 0x202E,
  0x202F, 0x205E, 0x205F, 0x206E, 0x2F46, 0x2FFF, 0x3000, 0xFFFFFFFF]

def isNotCodePointEnds : List Nat := [
  0x10FFFF, 0xFFFFFFFF]

def isCodePointEnds : List Nat := [
  0x10FFFF, 0xFFFFFFFF]

def isCodePointBoundaryEnds : List Nat := [
  0x10FFFF, 0xFFFFFFFF]

def isCombiningMarkEnds : List Nat := [
  0x2FF, 0x33F, 0x36F, 0x37F, 0x3BF, 0x3FF, 0x43F, 0x47F, 0x482, 0x487, 0x4BF, 0x4FF, 0x53F, 0x57F, 0x590, 0x5BD,
  0x5BE, 0x5BF, 0x5C0, 0x5C2, 0x5C3, 0x5C5, 0x5C6, 0x5C7, 0x5FF, 0x60F, 0x61A, 0x63F, 0x64A, 0x65F, 0x66F, 0x670,
  0x67F, 0x6BF, 0x6D5, 0x6DC, 0x6DE, 0x6E4, 0x6E6, 0x6E8, 0x6E9, 0x6ED, 0x6FF, 0x710, 0x711, 0x72F, 0x73F, 0x74A,
  0x77F, 0x7A5, 0x7B0, 0x7BF, 0x7EA, 0x7F3, 0x7FC, 0x7FD, 0x7FF, 0x815, 0x819, 0x81A, 0x823, 0x824, 0x827, 0x828,
  0x82D, 0x83F, 0x858, 0x85B, 0x87F, 0x897, 0x89F, 0x8BF, 0x8C9, 0x8E1, 0x8E2, 0x8FF, 0x903, 0x939, 0x93C, 0x93D,
  0x93F, 0x94F, 0x950, 0x957, 0x961, 0x963, 0x97F, 0x980, 0x983, 0x9BB, 0x9BC, 0x9BD, 0x9BF, 0x9C4, 0x9C6, 0x9C8,
  0x9CA, 0x9CD, 0x9D6, 0x9D7, 0x9E1, 0x9E3, 0x9FD, 0x9FE, 0x9FF, 0xA00, 0xA03, 0xA3B, 0xA3C, 0xA3D, 0xA3F, 0xA42,
  0xA46, 0xA48, 0xA4A, 0xA4D, 0xA50, 0xA51, 0xA6F, 0xA71, 0xA74, 0xA75, 0xA7F, 0xA80, 0xA83, 0xABB, 0xABC, 0xABD,
  0xABF, 0xAC5, 0xAC6, 0xAC9, 0xACA, 0xACD, 0xAE1, 0xAE3, 0xAF9, 0xAFF, 0xB00, 0xB03, 0xB3B, 0xB3C, 0xB3D, 0xB3F,
  0xB44, 0xB46, 0xB48, 0xB4A, 0xB4D, 0xB54, 0xB57, 0xB61, 0xB63, 0xB7F, 0xB81, 0xB82, 0xBBD, 0xBBF, 0xBC2, 0xBC5,
  0xBC8, 0xBC9, 0xBCD, 0xBD6, 0xBD7, 0xBFF, 0xC04, 0xC3B, 0xC3C, 0xC3D, 0xC3F, 0xC44, 0xC45, 0xC48, 0xC49, 0xC4D,
  0xC54, 0xC56, 0xC61, 0xC63, 0xC7F, 0xC80, 0xC83, 0xCBB, 0xCBC, 0xCBD, 0xCBF, 0xCC4, 0xCC5, 0xCC8, 0xCC9, 0xCCD,
  0xCD4, 0xCD6, 0xCE1, 0xCE3, 0xCF2, 0xCF3, 0xCFF, 0xD03, 0xD3A, 0xD3C, 0xD3D, 0xD3F, 0xD44, 0xD45, 0xD48, 0xD49,
  0xD4D, 0xD56, 0xD57, 0xD61, 0xD63, 0xD7F, 0xD80, 0xD83, 0xDBF, 0xDC9, 0xDCA, 0xDCE, 0xDD4, 0xDD5, 0xDD6, 0xDD7,
  0xDDF, 0xDF1, 0xDF3, 0xDFF, 0xE30, 0xE31, 0xE33, 0xE3A, 0xE3F, 0xE46, 0xE4E, 0xE7F, 0xEB0, 0xEB1, 0xEB3, 0xEBC,
  0xEBF, 0xEC7, 0xECE, 0xEFF, 0xF17, 0xF19, 0xF34, 0xF35, 0xF36, 0xF37, 0xF38, 0xF39, 0xF3D, 0xF3F, 0xF70, 0xF7F,
  0xF84, 0xF85, 0xF87, 0xF8C, 0xF97, 0xF98, 0xFBC, 0xFBF, 0xFC5, 0xFC6, 0xFFF, 0x102A, 0x103E, 0x103F, 0x1055,
  0x1059, 0x105D, 0x1060, 0x1061, 0x1064, 0x1066, 0x106D, 0x1070, 0x1074, 0x107F, 0x1081, 0x108D, 0x108E, 0x108F,
  0x1099, 0x109D, 0x10BF, 0x10FF, 0x113F, 0x117F, 0x11BF, 0x11FF, 0x123F, 0x127F, 0x12BF, 0x12FF, 0x133F, 0x135C,
  0x135F, 0x137F, 0x13BF, 0x13FF, 0x143F, 0x147F, 0x14BF, 0x14FF, 0x153F, 0x157F, 0x15BF, 0x15FF, 0x163F, 0x167F,
  0x16BF, 0x16FF, 0x1711, 0x1715, 0x1731, 0x1734, 0x173F, 0x1751, 0x1753, 0x1771, 0x1773, 0x177F, 0x17B3, 0x17BF,
  0x17D3, 0x17DC, 0x17DD, 0x17FF, 0x180A, 0x180D, 0x180E, 0x180F, 0x183F, 0x187F, 0x1884, 0x1886, 0x18A8, 0x18A9,
  0x18BF, 0x18FF, 0x191F, 0x192B, 0x192F, 0x193B, 0x193F, 0x197F, 0x19BF, 0x19FF, 0x1A16, 0x1A1B, 0x1A3F, 0x1A54,
  0x1A5E, 0x1A5F, 0x1A7C, 0x1A7E, 0x1A7F, 0x1AAF, 0x1ABD, 0x1ABE, 0x1ABF, 0x1ACE, 0x1AFF, 0x1B04, 0x1B33, 0x1B3F,
  0x1B44, 0x1B6A, 0x1B73, 0x1B7F, 0x1B82, 0x1BA0, 0x1BAD, 0x1BBF, 0x1BE5, 0x1BF3, 0x1BFF, 0x1C23, 0x1C37, 0x1C3F,
  0x1C7F, 0x1CBF, 0x1CCF, 0x1CD2, 0x1CD3, 0x1CE8, 0x1CEC, 0x1CED, 0x1CF3, 0x1CF4, 0x1CF6, 0x1CF9, 0x1CFF, 0x1D3F,
  0x1D7F, 0x1DBF, 0x1DFF, 0x1E3F, 0x1E7F, 0x1EBF, 0x1EFF, 0x1F3F, 0x1F7F, 0x1FBF, 0x1FFF, 0x203F, 0x207F, 0x20BF,
  0x20CF, 0x20DC, 0x20E0, 0x20E1, 0x20E4, 0x20F0, 0x20FF, 0x213F, 0x217F, 0x21BF, 0x21FF, 0x223F, 0x227F, 0x22BF,
  0x22FF, 0x233F, 0x237F, 0x23BF, 0x23FF, 0x243F, 0x247F, 0x24BF, 0x24FF, 0x253F, 0x257F, 0x25BF, 0x25FF, 0x263F,
  0x267F, 0x26BF, 0x26FF, 0x273F, 0x277F, 0x27BF, 0x27FF, 0x283F, 0x287F, 0x28BF, 0x28FF, 0x293F, 0x297F, 0x29BF,
  0x29FF, 0x2A3F, 0x2A7F, 0x2ABF, 0x2AFF, 0x2B3F, 0x2B7F, 0x2BBF, 0x2BFF, 0x2C3F, 0x2C7F, 0x2CBF, 0x2CEE, 0x2CF1,
  0x2CFF, 0x2D3F, 0x2D7E, 0x2D7F, 0x2DBF, 0x2DDF, 0x2DFF, 0x2E3F, 0x2E7F, 0x2EBF, 0x2EFF, 0x2F3F, 0x2F7F, 0x2FBF,
  0x2FFF, 0x3029, 0x302F, 0x303F, 0x307F, 0x3098, 0x309A, 0x3AFB, 0x72F7, 0xA66E, 0xA66F, 0xA673, 0xA67D, 0xA69D,
  0xA69F, 0xA6AE, 0xA6EE, 0xA6EF, 0xA6F1, 0xA72E, 0xA76E, 0xA7AE, 0xA7EE, 0xA801, 0xA802, 0xA805, 0xA806, 0xA80A,
  0xA80B, 0xA822, 0xA827, 0xA82B, 0xA82C, 0xA82E, 0xA86E, 0xA87F, 0xA881, 0xA8AE, 0xA8B3, 0xA8C5, 0xA8DF, 0xA8EE,
  0xA8F1, 0xA8FE, 0xA8FF, 0xA925, 0xA92D, 0xA92E, 0xA946, 0xA953, 0xA96E, 0xA97F, 0xA983, 0xA9AE, 0xA9B2, 0xA9C0,
  0xA9E4, 0xA9E5, 0xA9EE, 0xAA28, 0xAA2E, 0xAA36, 0xAA42, 0xAA43, 0xAA4B, 0xAA4D, 0xAA6E, 0xAA7A, 0xAA7D, 0xAAAE,
  0xAAAF, 0xAAB0, 0xAAB1, 0xAAB4, 0xAAB6, 0xAAB8, 0xAABD, 0xAABF, 0xAAC0, 0xAAC1, 0xAAEA, 0xAAEE, 0xAAEF, 0xAAF3,
  0xAAF4, 0xAAF6, 0xABE2, 0xABEA, 0xABEB, 0xABED, 0xE2EF, 0xFB1D, 0xFB1E, 0xFB5D, 0xFB9D, 0xFBDD, 0xFC1D, 0xFC5D,
  0xFC9D, 0xFCDD, 0xFD1D, 0xFD5D, 0xFD9D, 0xFDDD, 0xFDFF, 0xFE0F, 0xFE1D, 0xFE1F, 0xFE2F, 0xFE5D, 0xFE9D, 0xFEDD,
  0xFF1D, 0xFF5D, 0xFF9D, 0xFFDD, 0x1001D, 0x1005D, 0x1009D, 0x100DD, 0x1011D, 0x1015D, 0x1019D, 0x101DD, 0x101FC,
  0x101FD, 0x1021D, 0x1025D, 0x1029D, 0x102DD, 0x102DF, 0x102E0, 0x1031D, 0x1035D, 0x10375, 0x1037A, 0x1039D,
  0x103DD, 0x1041D, 0x1045D, 0x1049D, 0x104DD, 0x1051D, 0x1055D, 0x1059D, 0x105DD, 0x1061D, 0x1065D, 0x1069D,
  0x106DD, 0x1071D, 0x1075D, 0x1079D, 0x107DD, 0x1081D, 0x1085D, 0x1089D, 0x108DD, 0x1091D, 0x1095D, 0x1099D,
  0x109DD, 0x10A00, 0x10A03, 0x10A04, 0x10A06, 0x10A0B, 0x10A0F, 0x10A1D, 0x10A37, 0x10A3A, 0x10A3E, 0x10A3F,
  0x10A5D, 0x10A9D, 0x10ADD, 0x10AE4, 0x10AE6, 0x10B1D, 0x10B5D, 0x10B9D, 0x10BDD, 0x10C1D, 0x10C5D, 0x10C9D,
  0x10CDD, 0x10D1D, 0x10D23, 0x10D27, 0x10D5D, 0x10D9D, 0x10DDD, 0x10E1D, 0x10E5D, 0x10E9D, 0x10EAA, 0x10EAC,
  0x10EDD, 0x10EFC, 0x10EFF, 0x10F1D, 0x10F45, 0x10F50, 0x10F5D, 0x10F81, 0x10F85, 0x10F9D, 0x10FDD, 0x10FFF,
  0x11002, 0x1101D, 0x11037, 0x11046, 0x1105D, 0x1106F, 0x11070, 0x11072, 0x11074, 0x1107E, 0x11082, 0x1109D,
  0x110AF, 0x110BA, 0x110C1, 0x110C2, 0x110DD, 0x110FF, 0x11102, 0x1111D, 0x11126, 0x11134, 0x11144, 0x11146,
  0x1115D, 0x11172, 0x11173, 0x1117F, 0x11182, 0x1119D, 0x111B2, 0x111C0, 0x111C8, 0x111CC, 0x111CD, 0x111CF,
  0x111DD, 0x1121D, 0x1122B, 0x11237, 0x1123D, 0x1123E, 0x11240, 0x11241, 0x1125D, 0x1129D, 0x112DD, 0x112DE,
  0x112EA, 0x112FF, 0x11303, 0x1131D, 0x1133A, 0x1133C, 0x1133D, 0x11344, 0x11346, 0x11348, 0x1134A, 0x1134D,
  0x11356, 0x11357, 0x1135D, 0x11361, 0x11363, 0x11365, 0x1136C, 0x1136F, 0x11374, 0x1139D, 0x113DD, 0x1141D,
  0x11434, 0x11446, 0x1145D, 0x1145E, 0x1149D, 0x114AF, 0x114C3, 0x114DD, 0x1151D, 0x1155D, 0x1159D, 0x115AE,
  0x115B5, 0x115B7, 0x115C0, 0x115DB, 0x115DD, 0x1161D, 0x1162F, 0x11640, 0x1165D, 0x1169D, 0x116AA, 0x116B7,
  0x116DD, 0x1171C, 0x1171D, 0x1172B, 0x1175D, 0x1179D, 0x117DD, 0x1181D, 0x1182B, 0x1183A, 0x1185D, 0x1189D,
  0x118DD, 0x1191D, 0x1192F, 0x11935, 0x11936, 0x11938, 0x1193A, 0x1193E, 0x1193F, 0x11940, 0x11941, 0x11943,
  0x1195D, 0x1199D, 0x119D0, 0x119D7, 0x119D9, 0x119DD, 0x119E0, 0x119E3, 0x119E4, 0x11A00, 0x11A0A, 0x11A1D,
  0x11A32, 0x11A39, 0x11A3A, 0x11A3E, 0x11A46, 0x11A47, 0x11A50, 0x11A5B, 0x11A5D, 0x11A89, 0x11A99, 0x11AEB,
  0x11C2E, 0x11C36, 0x11C37, 0x11C3F, 0x11C8F, 0x11C91, 0x11CA7, 0x11CA8, 0x11CB6, 0x11CF0, 0x11D30, 0x11D36,
  0x11D39, 0x11D3A, 0x11D3B, 0x11D3D, 0x11D3E, 0x11D45, 0x11D46, 0x11D47, 0x11D51, 0x11D89, 0x11D8E, 0x11D8F,
  0x11D91, 0x11D92, 0x11D97, 0x11DB2, 0x11ED5, 0x11EF2, 0x11EF6, 0x11EFF, 0x11F01, 0x11F02, 0x11F03, 0x11F32,
  0x11F33, 0x11F36, 0x11F3A, 0x11F3D, 0x11F42, 0x11F97, 0x1340D, 0x1343F, 0x13440, 0x13446, 0x13455, 0x152E7,
  0x16AEF, 0x16AF4, 0x16B2F, 0x16B36, 0x16B6F, 0x16BAF, 0x16BEF, 0x16C2F, 0x16C6F, 0x16CAF, 0x16CEF, 0x16D2F,
  0x16D6F, 0x16DAF, 0x16DEF, 0x16E2F, 0x16E6F, 0x16EAF, 0x16EEF, 0x16F2F, 0x16F4E, 0x16F4F, 0x16F50, 0x16F6F,
  0x16F87, 0x16F8E, 0x16F92, 0x16FAF, 0x16FE3, 0x16FE4, 0x16FEF, 0x16FF1, 0x18AE3, 0x1BC9C, 0x1BC9E, 0x1C2DF,
  0x1CEFF, 0x1CF2D, 0x1CF2F, 0x1CF3F, 0x1CF46, 0x1CF7F, 0x1CFBF, 0x1CFFF, 0x1D03F, 0x1D07F, 0x1D0BF, 0x1D0FF,
  0x1D13F, 0x1D164, 0x1D169, 0x1D16C, 0x1D172, 0x1D17A, 0x1D17F, 0x1D182, 0x1D184, 0x1D18B, 0x1D1A9, 0x1D1AD,
  0x1D1BF, 0x1D1FF, 0x1D23F, 0x1D241, 0x1D244, 0x1D27F, 0x1D2BF, 0x1D2FF, 0x1D33F, 0x1D37F, 0x1D3BF, 0x1D3FF,
  0x1D43F, 0x1D47F, 0x1D4BF, 0x1D4FF, 0x1D53F, 0x1D57F, 0x1D5BF, 0x1D5FF, 0x1D63F, 0x1D67F, 0x1D6BF, 0x1D6FF,
  0x1D73F, 0x1D77F, 0x1D7BF, 0x1D7FF, 0x1D83F, 0x1D87F, 0x1D8BF, 0x1D8FF, 0x1D93F, 0x1D97F, 0x1D9BF, 0x1D9FF,
  0x1DA36, 0x1DA3A, 0x1DA3F, 0x1DA6C, 0x1DA74, 0x1DA75, 0x1DA7F, 0x1DA83, 0x1DA84, 0x1DA9A, 0x1DA9F, 0x1DAA0,
  0x1DAAF, 0x1DABF, 0x1DAFF, 0x1DB3F, 0x1DB7F, 0x1DBBF, 0x1DBFF, 0x1DC3F, 0x1DC7F, 0x1DCBF, 0x1DCFF, 0x1DD3F,
  0x1DD7F, 0x1DDBF, 0x1DDFF, 0x1DE3F, 0x1DE7F, 0x1DEBF, 0x1DEFF, 0x1DF3F, 0x1DF7F, 0x1DFBF, 0x1DFFF, 0x1E006,
  0x1E007, 0x1E018, 0x1E01A, 0x1E021, 0x1E022, 0x1E024, 0x1E025, 0x1E02A, 0x1E03F, 0x1E07F, 0x1E08E, 0x1E08F,
  0x1E0BF, 0x1E0FF, 0x1E12F, 0x1E136, 0x1E13F, 0x1E17F, 0x1E1BF, 0x1E1FF, 0x1E23F, 0x1E27F, 0x1E2AD, 0x1E2AE,
  0x1E2BF, 0x1E2EB, 0x1E2EF, 0x1E2FF, 0x1E33F, 0x1E37F, 0x1E3BF, 0x1E3FF, 0x1E43F, 0x1E47F, 0x1E4BF, 0x1E4EB,
  0x1E4EF, 0x1E4FF, 0x1E53F, 0x1E57F, 0x1E5BF, 0x1E5FF, 0x1E63F, 0x1E67F, 0x1E6BF, 0x1E6FF, 0x1E73F, 0x1E77F,
  0x1E7BF, 0x1E7FF, 0x1E83F, 0x1E87F, 0x1E8BF, 0x1E8CF, 0x1E8D6, 0x1E8FF, 0x1E93F, 0x1E943, 0x1E94A, 0x1FADB,
  0xDCA03, 0xE00FF, 0xE01EF, 0xFFFFFFFF]

def isDecimalDigitEnds : List Nat := [
  0x2F, 0x39, 0xFFFFFFFF]

def isHexadecimalDigitEnds : List Nat := [
  0x2F, 0x39, 0x40, 0x46, 0x60, 0x66, 0xFFFFFFFF]

def isOctalDigitEnds : List Nat := [
  0x2F, 0x37, 0xFFFFFFFF]

end Verif.Proofs.CodePoint.Char32
