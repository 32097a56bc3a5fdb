/- src/Ystring/CharClassTables.hpp
   Generated by tools/gen_tables.py; do not edit. -/
namespace Ystring

/-- src/Ystring/CharClassTables.hpp:12-30 (part 0) -/
def ASCII_CHAR_CLASSES_0 : List Nat := [
  0x19, 0x19, 0x19, 0x19, 0x19, 0x19, 0x19, 0x19,
  0x19, 0x19, 0x19, 0x19, 0x19, 0x19, 0x19, 0x19,
  0x19, 0x19, 0x19, 0x19, 0x19, 0x19, 0x19, 0x19,
  0x19, 0x19, 0x19, 0x19, 0x19, 0x19, 0x19, 0x19,
  0x16, 0x11, 0x11, 0x11, 0x13, 0x11, 0x11, 0x11,
  0xD, 0xE, 0x11, 0x12, 0x11, 0xC, 0x11, 0x11,
  0x8, 0x8, 0x8, 0x8, 0x8, 0x8, 0x8, 0x8,
  0x8, 0x8, 0x11, 0x11, 0x12, 0x12, 0x12, 0x11,
  0x11, 0x0, 0x0, 0x0, 0x0, 0x0, 0x0, 0x0,
  0x0, 0x0, 0x0, 0x0, 0x0, 0x0, 0x0, 0x0,
  0x0, 0x0, 0x0, 0x0, 0x0, 0x0, 0x0, 0x0,
  0x0, 0x0, 0x0, 0xD, 0x11, 0xE, 0x14, 0xB,
  0x14, 0x1, 0x1, 0x1, 0x1, 0x1, 0x1, 0x1,
  0x1, 0x1, 0x1, 0x1, 0x1, 0x1, 0x1, 0x1,
  0x1, 0x1, 0x1, 0x1, 0x1, 0x1, 0x1, 0x1,
  0x1, 0x1, 0x1, 0xD, 0x12, 0xE, 0x12, 0x19]

/-- src/Ystring/CharClassTables.hpp:12-30 (128 entries) -/
def ASCII_CHAR_CLASSES : List Nat :=
  ASCII_CHAR_CLASSES_0

/-- src/Ystring/CharClassTables.hpp:32-500 (part 0) -/
def COMPLETE_CHAR_CLASSES_0 : List Nat := [
  0x10357, 0x12254, 0x1424E, 0x151F2, 0x16272, 0x1680D, 0x17812, 0x1C809,
  0x1D812, 0x1F013, 0x20012, 0x2D82E, 0x2EA4F, 0x2FAAC, 0x30015, 0x3D84E,
  0x3EA6F, 0x3F013, 0x50357, 0x50812, 0x53296, 0x54255, 0x552C5, 0x56213,
  0x57376, 0x582B6, 0x58813, 0x5A175, 0x5A802, 0x5C255, 0x5D165, 0x5D811,
  0x5F972, 0x6B833, 0x6F001, 0x7B853, 0x7F802, 0x9B401, 0x9C002, 0xA3C01,
  0xA4802, 0xBBC02, 0xBC801, 0xBEC01, 0xC0002, 0xC1001, 0xC2C02, 0xC4022,
  0xC5801, 0xC6802, 0xC9022, 0xCA822, 0xCC001, 0xCD802, 0xCF022, 0xD0001,
  0xD2C02, 0xD3801, 0xD4C01, 0xD5802, 0xD6C02, 0xD8022, 0xD9801, 0xDB402,
  0xDC001, 0xDD845, 0xDE001, 0xDF802, 0xE20A1, 0xE2803, 0xE3C01, 0xE4003,
  0xE5401, 0xE5803, 0xEDC01, 0xEE802, 0xF7401, 0xF8841, 0xF9003, 0xFAC02,
  0xFC001, 0x119401, 0x11C802, 0x11E022, 0x11F001, 0x120002, 0x121402, 0x123001,
  0x127401, 0x14A045, 0x157802, 0x160804, 0x162815, 0x168804, 0x16F815, 0x172004,
  0x1762A4, 0x1772A4, 0x17F815, 0x1B7806, 0x1B9C02, 0x1BA895, 0x1BBC02, 0x1BD3C4,
  0x1BF052, 0x1BF801, 0x1C181E, 0x1C32A1, 0x1C3812, 0x1C583E, 0x1C683E, 0x1C8022,
  0x1D103E, 0x1D5801, 0x1E7841, 0x1E8802, 0x1EA001, 0x1EB802, 0x1F7401, 0x1F9802,
  0x1FAC02, 0x1FB013, 0x1FC402, 0x1FD001, 0x1FE002, 0x217801, 0x22F802, 0x240C02,
  0x241016, 0x243806, 0x244808, 0x25FC02, 0x260801, 0x266C01, 0x267802, 0x297C02,
  0x29801E, 0x2AB001, 0x2ACBC4, 0x2AF812, 0x2C4852, 0x2C500D, 0x2C601E, 0x2C7AD4,
  0x2C801E, 0x2DF0CD, 0x2E00D2, 0x2E18D2, 0x2E30D2, 0x2E3806, 0x2E781E, 0x2F5005,
  0x2F701E, 0x2F9005, 0x2FA012, 0x2FF81E, 0x30281B, 0x304013, 0x305A54, 0x306812,
  0x307816, 0x30D8D2, 0x30E01B, 0x30F812, 0x3200A4, 0x325005, 0x32F806, 0x334809,
  0x336812, 0x3380A6, 0x36A0B2, 0x36A805, 0x36E8DB, 0x36F016, 0x372006, 0x373004,
  0x3748D6, 0x376806, 0x377805, 0x37C809, 0x37E005, 0x37FAC5, 0x38725E, 0x388365,
  0x388806, 0x397805, 0x3A5006, 0x3A601E, 0x3D2805, 0x3D88C5, 0x3DF81E, 0x3E4809,
  0x3F5005, 0x3F9806, 0x3FB096, 0x3FD244, 0x3FEBC6, 0x3FF814, 0x40A805, 0x40D0C4]

/-- src/Ystring/CharClassTables.hpp:32-500 (part 1) -/
def COMPLETE_CHAR_CLASSES_1 : List Nat := [
  0x4120C4, 0x4140C4, 0x416806, 0x41781E, 0x41FA5E, 0x42C005, 0x42D806, 0x42F3D2,
  0x42F81E, 0x435005, 0x43781E, 0x4440B5, 0x4478BE, 0x44881B, 0x44B01E, 0x44F806,
  0x4648A4, 0x4710DB, 0x4818C7, 0x49D0A6, 0x49E0E6, 0x49E805, 0x4A0007, 0x4A4006,
  0x4A68E6, 0x4A80E5, 0x4AB806, 0x4B0805, 0x4B1806, 0x4B2812, 0x4B8132, 0x4B8804,
  0x4C08A6, 0x4C20FE, 0x4C6005, 0x4C701E, 0x4C8005, 0x4C901E, 0x4D48BE, 0x4D88BE,
  0x4D9005, 0x4DA81E, 0x4DC805, 0x4DE3C6, 0x4DE805, 0x4E0007, 0x4E2006, 0x4E301E,
  0x4E4007, 0x4E501E, 0x4E68E6, 0x4E7005, 0x4EBBC7, 0x4ED81E, 0x4EF0BE, 0x4F0805,
  0x4F1806, 0x4F281E, 0x4F7809, 0x4F8805, 0x4F9814, 0x4FD176, 0x4FE285, 0x4FF246,
  0x50001E, 0x5018C7, 0x50201E, 0x505005, 0x50701E, 0x508005, 0x50901E, 0x5148BE,
  0x5188BE, 0x51A0BE, 0x51B8BE, 0x51C805, 0x51E3C6, 0x51E81E, 0x520007, 0x521006,
  0x52301E, 0x524006, 0x52501E, 0x526806, 0x528BC6, 0x52C01E, 0x52E8BE, 0x52F005,
  0x53281E, 0x537809, 0x538806, 0x53A8A6, 0x53B012, 0x54001E, 0x5418C7, 0x54201E,
  0x5470BE, 0x5490BE, 0x5548BE, 0x5588BE, 0x55A0BE, 0x55C805, 0x55E3C6, 0x55E805,
  0x560007, 0x5630DE, 0x5648C7, 0x56501E, 0x5668E6, 0x5683C5, 0x56F81E, 0x570805,
  0x571806, 0x57281E, 0x578132, 0x578814, 0x57CBC5, 0x5800DE, 0x580806, 0x5820FE,
  0x586005, 0x58701E, 0x588005, 0x58901E, 0x5948BE, 0x5988BE, 0x59A0BE, 0x59C805,
  0x59E3C6, 0x59F0A7, 0x5A00C7, 0x5A2006, 0x5A301E, 0x5A4007, 0x5A501E, 0x5A68E6,
  0x5AA01E, 0x5AB8C7, 0x5AD81E, 0x5AF0BE, 0x5B0805, 0x5B1806, 0x5B281E, 0x5B8136,
  0x5B8805, 0x5BB80B, 0x5C13C6, 0x5C20BE, 0x5C5005, 0x5C681E, 0x5C88BE, 0x5CA805,
  0x5CC01E, 0x5CD8BE, 0x5CE8BE, 0x5CF805, 0x5D101E, 0x5D2005, 0x5D381E, 0x5D5005,
  0x5D681E, 0x5DC805, 0x5DE81E, 0x5E00E6, 0x5E1007, 0x5E281E, 0x5E48FE, 0x5E68E6,
  0x5E83C5, 0x5EBBC7, 0x5F281E, 0x5F7809, 0x5F900B, 0x5FCAD4, 0x5FD016, 0x6003C6,
  0x6020E6, 0x6068BE, 0x6088BE, 0x6148BE, 0x61C805, 0x61E3C6, 0x61E805, 0x620006,
  0x6228FE, 0x6248DE, 0x626806, 0x62A01E, 0x62B8DE, 0x62D005, 0x62EBC5, 0x62F81E,
  0x630805, 0x631806, 0x63281E, 0x637809, 0x63BBD2, 0x63F976, 0x6408A6, 0x6420F2]

/-- src/Ystring/CharClassTables.hpp:32-500 (part 2) -/
def COMPLETE_CHAR_CLASSES_2 : List Nat := [
  0x6468BE, 0x6488BE, 0x6548BE, 0x65A0BE, 0x65C805, 0x65E3C6, 0x65F0A7, 0x65F806,
  0x6628FE, 0x663006, 0x6648FE, 0x665807, 0x666806, 0x66A01E, 0x66B007, 0x66E01E,
  0x66F8BE, 0x670805, 0x671806, 0x67281E, 0x67813E, 0x6798A7, 0x67F81E, 0x680806,
  0x681807, 0x6868BE, 0x6888BE, 0x69D005, 0x69E8C5, 0x6A0007, 0x6A28DE, 0x6A48FE,
  0x6A68E6, 0x6A78B6, 0x6A981E, 0x6AB8A7, 0x6AF00B, 0x6B0805, 0x6B1806, 0x6B281E,
  0x6B7809, 0x6BC976, 0x6C00BE, 0x6C0806, 0x6C20FE, 0x6CB005, 0x6CC81E, 0x6D90BE,
  0x6DE0BE, 0x6DE805, 0x6DF81E, 0x6E3005, 0x6E53C6, 0x6E701E, 0x6E8807, 0x6EA8DE,
  0x6EB8DE, 0x6EF807, 0x6F281E, 0x6F7809, 0x6F881E, 0x6FA0F2, 0x70001E, 0x7188A6,
  0x719805, 0x71D006, 0x71FBD4, 0x7230A4, 0x7278D2, 0x72C809, 0x72D812, 0x74001E,
  0x7418BE, 0x7428BE, 0x7458BE, 0x7520BE, 0x7530BE, 0x7588A6, 0x759805, 0x75E8C5,
  0x75F81E, 0x7628BE, 0x76389E, 0x7678DE, 0x76C809, 0x76D81E, 0x76F805, 0x7803C5,
  0x781816, 0x789A56, 0x78A012, 0x78B816, 0x78C806, 0x78F816, 0x794809, 0x79A176,
  0x79B0D6, 0x79C0D6, 0x79D0CE, 0x79E1EE, 0x79E80F, 0x79F807, 0x7A40BE, 0x7B6005,
  0x7B801E, 0x7BF8C7, 0x7C28D2, 0x7C3806, 0x7C6005, 0x7CC0DE, 0x7DE8DE, 0x7E32C6,
  0x7E6ADE, 0x7E7816, 0x7EA012, 0x7EC016, 0x7ED012, 0x7FF81E, 0x815005, 0x816007,
  0x8188C7, 0x81C0C7, 0x81D006, 0x81E007, 0x81F8C5, 0x824809, 0x827812, 0x82A805,
  0x82B807, 0x82C806, 0x82E805, 0x8308C5, 0x832007, 0x833005, 0x836807, 0x838005,
  0x83A006, 0x8410A6, 0x842007, 0x843006, 0x8468E6, 0x8478A7, 0x84C809, 0x84E8E6,
  0x84F816, 0x86303E, 0x863801, 0x866BC1, 0x86781E, 0x87D852, 0x87E004, 0x87F802,
  0x9248BE, 0x926805, 0x92781E, 0x92B8BE, 0x92C8BE, 0x92E805, 0x92F81E, 0x9448BE,
  0x946805, 0x94781E, 0x9588BE, 0x95A805, 0x95B81E, 0x95F8BE, 0x9608BE, 0x962805,
  0x96381E, 0x96B8BE, 0x9888BE, 0x98A805, 0x98B81E, 0x9AD005, 0x9AE01E, 0x9AF806,
  0x9B4012, 0x9BE00B, 0x9BF81E, 0x9C7805, 0x9CC816, 0x9CF81E, 0x9FA801, 0x9FB81E,
  0x9FE802, 0xA003CD, 0xB368B6, 0xB37012, 0xB400B7, 0xB4D8AE, 0xB4E00F, 0xB4F81E,
  0xB75005, 0xB76812, 0xB7800A, 0xB7C005, 0xB7F81E, 0xB88805, 0xB8A8C7, 0xB8F01E]

/-- src/Ystring/CharClassTables.hpp:32-500 (part 3) -/
def COMPLETE_CHAR_CLASSES_3 : List Nat := [
  0xB98805, 0xB9A0C7, 0xB9B012, 0xB9F81E, 0xBA8805, 0xBA9806, 0xBAF81E, 0xBB68BE,
  0xBB88BE, 0xBB9806, 0xBBF81E, 0xBD9805, 0xBDB0C7, 0xBDE806, 0xBE30E6, 0xBE4007,
  0xBE9806, 0xBEBA44, 0xBEDA54, 0xBEE8A6, 0xBEF81E, 0xBF4809, 0xBF781E, 0xBFC80B,
  0xBFF81E, 0xC0324D, 0xC05012, 0xC070DB, 0xC07806, 0xC0C809, 0xC0F81E, 0xC218A4,
  0xC3C005, 0xC3F81E, 0xC42005, 0xC43006, 0xC548A6, 0xC55005, 0xC5781E, 0xC7A805,
  0xC7F81E, 0xC8F8BE, 0xC91006, 0xC93007, 0xC94006, 0xC95807, 0xC9781E, 0xC990E6,
  0xC9C007, 0xC9D806, 0xCA03D6, 0xCA181E, 0xCA2812, 0xCA7809, 0xCB6805, 0xCB781E,
  0xCBA005, 0xCBF81E, 0xCD5805, 0xCD781E, 0xCE4805, 0xCE781E, 0xCED12B, 0xCEE81E,
  0xCFF816, 0xD0B005, 0xD0C006, 0xD0D8E6, 0xD0E81E, 0xD0F812, 0xD2A8A7, 0xD2B8C7,
  0xD2F8DE, 0xD308C7, 0xD31006, 0xD32007, 0xD36006, 0xD39007, 0xD3E006, 0xD3FBC6,
  0xD44809, 0xD4781E, 0xD4C809, 0xD4F81E, 0xD53A44, 0xD56812, 0xD5781E, 0xD5F0C8,
  0xD67006, 0xD7F81E, 0xD820C7, 0xD9A0A6, 0xD9A807, 0xD9D8C7, 0xD9E006, 0xDA10E6,
  0xDA2007, 0xDA68BE, 0xDA7812, 0xDAC809, 0xDB0012, 0xDB5016, 0xDB9806, 0xDBE016,
  0xDBF812, 0xDC10C7, 0xDD08A7, 0xDD2806, 0xDD3807, 0xDD50C7, 0xDD6806, 0xDD7805,
  0xDDC809, 0xDF30A6, 0xDF3807, 0xDF4806, 0xDF68E6, 0xDF7007, 0xDF8806, 0xDF9807,
  0xDFD81E, 0xDFF812, 0xE11805, 0xE15807, 0xE19806, 0xE1A807, 0xE1B806, 0xE1D01E,
  0xE1F812, 0xE24809, 0xE2601E, 0xE27805, 0xE2C809, 0xE3B805, 0xE3E804, 0xE3F812,
  0xE44002, 0xE45402, 0xE4781E, 0xE5D001, 0xE5E01E, 0xE5F801, 0xE63812, 0xE6781E,
  0xE698D2, 0xE708C7, 0xE74006, 0xE768A6, 0xE7A0A6, 0xE7B8A7, 0xE7D0C5, 0xE7F81E,
  0xE95802, 0xEB5004, 0xEBC044, 0xECD002, 0xEDF804, 0xEFF806, 0xF4A401, 0xF4E802,
  0xF7F401, 0xF83802, 0xF87801, 0xF8A802, 0xF8B81E, 0xF8E801, 0xF8F81E, 0xF93802,
  0xF97801, 0xF9B802, 0xF9F801, 0xFA2802, 0xFA381E, 0xFA6801, 0xFA781E, 0xFAC05E,
  0xFAD03E, 0xFAE03E, 0xFAF03E, 0xFAF801, 0xFB3802, 0xFB7801, 0xFBE802, 0xFBF81E,
  0xFC3802, 0xFC7803, 0xFCB802, 0xFCF803, 0xFD3802, 0xFD7803, 0xFDA85E, 0xFDB802,
  0xFDE023, 0xFDF2A2, 0xFE0815, 0xFE285E, 0xFE3802, 0xFE6023, 0xFE7815, 0xFE9802]

/-- src/Ystring/CharClassTables.hpp:32-500 (part 4) -/
def COMPLETE_CHAR_CLASSES_4 : List Nat := [
  0xFEA81E, 0xFEB802, 0xFEE03E, 0xFEF815, 0xFF3802, 0xFF6001, 0xFF7815, 0xFF881E,
  0xFFA85E, 0xFFB802, 0xFFE023, 0xFFFABE, 0x1005017, 0x100781B, 0x100A80D, 0x100C250,
  0x100D22E, 0x100EA11, 0x100F9D0, 0x1014258, 0x1014819, 0x1017B77, 0x101CA50, 0x101D011,
  0x101F012, 0x102000C, 0x1022253, 0x10231CF, 0x1029253, 0x102A24C, 0x102FA57, 0x1032B7E,
  0x103836B, 0x1038804, 0x103981E, 0x103C80B, 0x103EA6E, 0x103F9E4, 0x104480B, 0x1046A6E,
  0x10479FE, 0x104E004, 0x104F81E, 0x1060014, 0x106781E, 0x106E006, 0x1070906, 0x1072008,
  0x1078006, 0x107F81E, 0x10812C1, 0x1083AC1, 0x10852C2, 0x1086801, 0x1087802, 0x1089822,
  0x108AAC1, 0x108C2D3, 0x108E801, 0x10922C1, 0x10932C1, 0x10942C1, 0x1094816, 0x1097036,
  0x1097802, 0x109A022, 0x109C8A2, 0x109D816, 0x109E802, 0x109F801, 0x10A2A61, 0x10A5056,
  0x10A5813, 0x10A72C2, 0x10A7816, 0x10AF80B, 0x10C100A, 0x10C2402, 0x10C494B, 0x10C5816,
  0x10C781E, 0x10CA013, 0x10CC816, 0x10CD813, 0x10D02D3, 0x10D1AD3, 0x10D32D3, 0x10D72D3,
  0x10E6816, 0x10E7813, 0x10E92D3, 0x10EA2D3, 0x10F9816, 0x117F813, 0x11842CE, 0x11851EE,
  0x118580F, 0x118F816, 0x1190813, 0x1194ACE, 0x119500F, 0x11BE2D3, 0x11CD016, 0x11D9813,
  0x11ED816, 0x11F0813, 0x1214816, 0x121F81E, 0x1225016, 0x122F81E, 0x124D80B, 0x1274816,
  0x127F80B, 0x12DBAD3, 0x12E0AD3, 0x12FB816, 0x12FF813, 0x1337AD3, 0x13B42CE, 0x13B51EE,
  0x13B61EE, 0x13B71EE, 0x13B81EE, 0x13B91EE, 0x13BA1EE, 0x13BA80F, 0x13C980B, 0x13DF816,
  0x13E2A6E, 0x13E300F, 0x13F326E, 0x13F41EE, 0x13F51EE, 0x13F61EE, 0x13F71EE, 0x13F780F,
  0x13FF813, 0x147F816, 0x14C1A6E, 0x14C29EE, 0x14C39EE, 0x14C49EE, 0x14C59EE, 0x14C69EE,
  0x14C79EE, 0x14C89EE, 0x14C99EE, 0x14CA9EE, 0x14CB9EE, 0x14CC00F, 0x14EC26E, 0x14ED1EE,
  0x14ED80F, 0x14FE26E, 0x14FE80F, 0x157F813, 0x1597816, 0x15A2013, 0x15A3016, 0x15A6013,
  0x15B9816, 0x15BA81E, 0x15CB2DE, 0x15FF816, 0x1617801, 0x162F802, 0x1630C02, 0x1632001,
  0x1633002, 0x1636402, 0x1638001, 0x1639401, 0x163A841, 0x163D802, 0x163E804, 0x1640001,
  0x1671401, 0x1672002, 0x1675016, 0x1677402, 0x1678806, 0x1679C02, 0x167C01E, 0x167EA4B,
  0x167F812, 0x169305E, 0x1693802, 0x1696BC2, 0x169781E, 0x16B3805, 0x16B7BC4, 0x16B8012,
  0x16BFBC6, 0x16CB005, 0x16CF81E, 0x16D38BE, 0x16D78BE, 0x16DB8BE, 0x16DF8BE, 0x16E38BE]

/-- src/Ystring/CharClassTables.hpp:32-500 (part 5) -/
def COMPLETE_CHAR_CLASSES_5 : List Nat := [
  0x16E78BE, 0x16EB8BE, 0x16EF8BE, 0x16FF806, 0x1701250, 0x1702230, 0x1702811, 0x1704A50,
  0x1705A32, 0x1706A11, 0x170BA4D, 0x170D24D, 0x170E250, 0x170E811, 0x1710250, 0x171122E,
  0x17121EE, 0x17131EE, 0x17141EE, 0x171480F, 0x1717A44, 0x171C812, 0x171D80D, 0x172024D,
  0x172124E, 0x1727812, 0x1728816, 0x172AA4E, 0x172B9EE, 0x172C9EE, 0x172D9EE, 0x172E9ED,
  0x173F81E, 0x174D2DE, 0x1779816, 0x177F81E, 0x17EA816, 0x17F781E, 0x18002D7, 0x1802256,
  0x1803085, 0x180414E, 0x18051EE, 0x18061EE, 0x18071EE, 0x18081EE, 0x180880F, 0x180A2CE,
  0x180B1EE, 0x180C1EE, 0x180D1EE, 0x180E1ED, 0x180E80E, 0x18101F6, 0x181480A, 0x1816806,
  0x18180ED, 0x181A804, 0x181B816, 0x181D944, 0x181E8B2, 0x18202DE, 0x184B005, 0x184C01E,
  0x184D006, 0x184E015, 0x184F885, 0x185000D, 0x187D8B2, 0x187F885, 0x188201E, 0x18980BE,
  0x18C78BE, 0x18C8816, 0x18CA80B, 0x18CF816, 0x18DF805, 0x18F2816, 0x18F7BD6, 0x18FF805,
  0x190FADE, 0x191480B, 0x1923816, 0x1928176, 0x192F80B, 0x193F816, 0x194480B, 0x1958016,
  0x195F80B, 0x1A002C5, 0x26DFBC5, 0x27002C5, 0x4FFF01E, 0x500A8A4, 0x5246005, 0x524781E,
  0x5263016, 0x526781E, 0x527B805, 0x527E804, 0x527F812, 0x53060A4, 0x5307812, 0x530F805,
  0x5314809, 0x5315805, 0x531F81E, 0x5336C02, 0x53378A6, 0x5339912, 0x533F0D2, 0x533F804,
  0x534DC02, 0x534E804, 0x534F806, 0x5372805, 0x537780A, 0x5378806, 0x537B812, 0x537F81E,
  0x538B015, 0x538F804, 0x5390815, 0x5397401, 0x5398802, 0x53B7C02, 0x53B8004, 0x53BC002,
  0x53BE402, 0x53BF001, 0x53C3C02, 0x53C4004, 0x53C5015, 0x53C7402, 0x53C7805, 0x53C9401,
  0x53CA802, 0x53D4C02, 0x53D7822, 0x53DA001, 0x53E1C02, 0x53E3801, 0x53E5402, 0x53E6822,
  0x53E781E, 0x53E8C02, 0x53E9BC2, 0x53EA01E, 0x53EE401, 0x53F881E, 0x53FA004, 0x53FB402,
  0x53FB805, 0x53FD082, 0x54010A6, 0x54030A6, 0x54058A6, 0x5411005, 0x5412007, 0x54138C7,
  0x54162C6, 0x541781E, 0x541A80B, 0x541C2D4, 0x541C816, 0x541F81E, 0x5439805, 0x543B812,
  0x543F81E, 0x5440807, 0x5459805, 0x5461807, 0x5462806, 0x546681E, 0x5467812, 0x546C809,
  0x546F81E, 0x5478806, 0x547B805, 0x547DA45, 0x547E012, 0x547F8A6, 0x5484809, 0x5492805,
  0x5496806, 0x5497812, 0x54A3005, 0x54A8806, 0x54A9807, 0x54AFBD2, 0x54BE005, 0x54BF81E,
  0x54C18C7, 0x54D98A6, 0x54DA807, 0x54DC806, 0x54DD807, 0x54DE806, 0x54E0007, 0x54E725E]

/-- src/Ystring/CharClassTables.hpp:32-500 (part 6) -/
def COMPLETE_CHAR_CLASSES_6 : List Nat := [
  0x54E7804, 0x54EC809, 0x54EE81E, 0x54EF812, 0x54F28A6, 0x54F3004, 0x54F7805, 0x54FC809,
  0x54FF8BE, 0x5514005, 0x5517006, 0x5518007, 0x5519006, 0x551A007, 0x551B006, 0x551F81E,
  0x55218A6, 0x55260A6, 0x5526807, 0x552781E, 0x552C809, 0x552D81E, 0x552F812, 0x55380A4,
  0x553B005, 0x553D2C5, 0x553E0E6, 0x553E807, 0x55580A6, 0x5558805, 0x555A006, 0x555B005,
  0x555C006, 0x555E805, 0x55600C5, 0x55610C5, 0x556D01E, 0x556E8A4, 0x556F812, 0x55758A7,
  0x5576806, 0x5577807, 0x5579245, 0x557A887, 0x557B006, 0x558001E, 0x5583005, 0x558401E,
  0x5587005, 0x558801E, 0x558B005, 0x558F81E, 0x55938BE, 0x55978BE, 0x55AD855, 0x55AF804,
  0x55B4844, 0x55B5815, 0x55B781E, 0x55DF802, 0x55F1005, 0x55F28E6, 0x55F40E6, 0x55F58F2,
  0x55F68E6, 0x55F781E, 0x55FC809, 0x55FF81E, 0x6BD1805, 0x6BD781E, 0x6BE3005, 0x6BE501E,
  0x6BFD805, 0x6BFF81E, 0x6FFF81C, 0x7C7F81D, 0x7D36805, 0x7D3781E, 0x7D6C805, 0x7D7F81E,
  0x7D83002, 0x7D8901E, 0x7D8B802, 0x7D8EBC5, 0x7D8F006, 0x7D948B3, 0x7D9B8BE, 0x7D9E8BE,
  0x7D9F8BE, 0x7DA10BE, 0x7DA28BE, 0x7DD8805, 0x7DE1015, 0x7DE901E, 0x7E9F0AF, 0x7E9F80E,
  0x7EA7816, 0x7EC7805, 0x7EC881E, 0x7EE3805, 0x7EE7BD6, 0x7EF781E, 0x7EFE0B4, 0x7EFF816,
  0x7F07806, 0x7F0BA4E, 0x7F0C9F2, 0x7F0F81E, 0x7F180D2, 0x7F1900D, 0x7F1A98E, 0x7F1B9EE,
  0x7F1C9EE, 0x7F1D9EE, 0x7F1E9EE, 0x7F1F9EE, 0x7F209EE, 0x7F219EE, 0x7F2200F, 0x7F23A4E,
  0x7F2400F, 0x7F26012, 0x7F2780C, 0x7F29A5E, 0x7F2C24D, 0x7F2D1CF, 0x7F2E1CF, 0x7F2F1CF,
  0x7F31253, 0x7F3180D, 0x7F33A7E, 0x7F34A54, 0x7F35812, 0x7F3781E, 0x7F3A8BE, 0x7F7E005,
  0x7F7FBDB, 0x7F8001E, 0x7F82254, 0x7F8424E, 0x7F851F2, 0x7F86272, 0x7F8680D, 0x7F87812,
  0x7F8C809, 0x7F8D812, 0x7F8F013, 0x7F90012, 0x7F9D82E, 0x7F9EA4F, 0x7F9FAAC, 0x7FA0015,
  0x7FAD84E, 0x7FAEA6F, 0x7FAFA6E, 0x7FB09F2, 0x7FB19CF, 0x7FB2812, 0x7FB80A4, 0x7FCE805,
  0x7FCF804, 0x7FDF005, 0x7FE081E, 0x7FE3805, 0x7FE481E, 0x7FE7805, 0x7FE881E, 0x7FEB805,
  0x7FEC81E, 0x7FEE005, 0x7FEF81E, 0x7FF1293, 0x7FF22B6, 0x7FF3A9E, 0x7FF4016, 0x7FF6013,
  0x7FF7016, 0x7FFC01E, 0x7FFD81B, 0x7FFE816, 0x7FFF81E, 0x80060BE, 0x80138BE, 0x801D8BE,
  0x801F0BE, 0x8026805, 0x802781E, 0x802E805, 0x803F81E, 0x807D005, 0x807F81E, 0x8081012,
  0x808301E, 0x809980B, 0x809B01E, 0x809F816, 0x80BA00A, 0x80BC00B, 0x80C4816, 0x80C580B]

/-- src/Ystring/CharClassTables.hpp:32-500 (part 7) -/
def COMPLETE_CHAR_CLASSES_7 : List Nat := [
  0x80C7ADE, 0x80CE016, 0x80D03D6, 0x80E781E, 0x80FEAC6, 0x813F81E, 0x814E005, 0x814F81E,
  0x8168005, 0x81703C6, 0x817D80B, 0x817F81E, 0x818F805, 0x819180B, 0x819601E, 0x81A08AA,
  0x81A50AA, 0x81A781E, 0x81BA805, 0x81BD006, 0x81BF81E, 0x81CF0BE, 0x81CF812, 0x81E1805,
  0x81E381E, 0x81E80B2, 0x81EA80A, 0x81FF81E, 0x8213801, 0x8227802, 0x824E805, 0x824F81E,
  0x8254809, 0x825781E, 0x8269801, 0x826B81E, 0x827D802, 0x827F81E, 0x8293805, 0x829781E,
  0x82B1805, 0x82B7BD2, 0x82BD83E, 0x82C583E, 0x82C983E, 0x82CB03E, 0x82D105E, 0x82D905E,
  0x82DD05E, 0x82DE002, 0x82DF81E, 0x82F9805, 0x82FF81E, 0x839B005, 0x839F81E, 0x83AA805,
  0x83AF81E, 0x83B3805, 0x83BF81E, 0x83C309E, 0x83D889E, 0x83DD004, 0x83FF81E, 0x8402805,
  0x84043C5, 0x840481E, 0x841B0BE, 0x841C005, 0x841E3C5, 0x841F01E, 0x842B0BE, 0x842B812,
  0x842F80B, 0x843B005, 0x843C016, 0x843F80B, 0x844F005, 0x845301E, 0x845780B, 0x846F81E,
  0x84798BE, 0x847A805, 0x847D01E, 0x847F80B, 0x848A805, 0x848D80B, 0x848FBD2, 0x849C805,
  0x849FBD2, 0x84BF81E, 0x84DB805, 0x84DD81E, 0x84DE80B, 0x84DF805, 0x84E780B, 0x84E881E,
  0x8500165, 0x85020DE, 0x8503006, 0x850581E, 0x8507806, 0x850A0BE, 0x850C0BE, 0x851A805,
  0x851B81E, 0x851D006, 0x851FBC6, 0x852400B, 0x852781E, 0x852C012, 0x852F81E, 0x853E005,
  0x853F972, 0x854E005, 0x854F80B, 0x855F81E, 0x85640B6, 0x8572005, 0x8573006, 0x857501E,
  0x857780B, 0x857B012, 0x857F81E, 0x859A805, 0x859C01E, 0x859F812, 0x85AA805, 0x85AB81E,
  0x85AF80B, 0x85B9005, 0x85BB81E, 0x85BF80B, 0x85C8805, 0x85CC01E, 0x85CE012, 0x85D401E,
  0x85D780B, 0x85FF81E, 0x8624005, 0x863F81E, 0x8659001, 0x865F81E, 0x8679002, 0x867C81E,
  0x867F80B, 0x8691805, 0x8693806, 0x869781E, 0x869C809, 0x869F81E, 0x86A4809, 0x86A70A4,
  0x86A7805, 0x86B2801, 0x86B401E, 0x86B70CD, 0x86B7804, 0x86C2802, 0x86C681E, 0x86C7813,
  0x872F81E, 0x873F97E, 0x87550BE, 0x87568CD, 0x875781E, 0x8758805, 0x876081E, 0x8762005,
  0x877D81E, 0x877F806, 0x878E005, 0x8793965, 0x879781E, 0x87A2805, 0x87A8006, 0x87AA00B,
  0x87AC812, 0x87B781E, 0x87C0805, 0x87C2806, 0x87C4812, 0x87D781E, 0x87E2005, 0x87E580B,
  0x87EF81E, 0x87FB005, 0x88003C7, 0x88010C7, 0x881B805, 0x8823006, 0x8826812, 0x882881E,
  0x883280B, 0x8838126, 0x8839005, 0x883A8C5, 0x883F01E, 0x88410C7, 0x8857805, 0x8859007]

/-- src/Ystring/CharClassTables.hpp:32-500 (part 8) -/
def COMPLETE_CHAR_CLASSES_8 : List Nat := [
  0x885B006, 0x885C007, 0x885D006, 0x885EA5B, 0x8861246, 0x8866BDB, 0x886781E, 0x8874005,
  0x887781E, 0x887C809, 0x887F81E, 0x8881006, 0x8893005, 0x88960C7, 0x889A8DE, 0x889F809,
  0x88A2245, 0x88A38E5, 0x88A781E, 0x88B98A6, 0x88BB245, 0x88BF81E, 0x88C10C7, 0x88D9005,
  0x88DA807, 0x88DF006, 0x88E0007, 0x88E2005, 0x88E4012, 0x88E68D2, 0x88E78E6, 0x88ED125,
  0x88EE245, 0x88F025E, 0x88FA00B, 0x88FF81E, 0x89090BE, 0x8915805, 0x8917007, 0x8918806,
  0x891A0E6, 0x891A807, 0x891B806, 0x891F246, 0x89208A6, 0x893F81E, 0x89438BE, 0x89448BE,
  0x89470BE, 0x894F0BE, 0x89548B2, 0x895781E, 0x896F8A6, 0x8971007, 0x8975006, 0x897781E,
  0x897C809, 0x897F81E, 0x8980806, 0x89820FE, 0x8986005, 0x898701E, 0x8988005, 0x898901E,
  0x89948BE, 0x89988BE, 0x899A0BE, 0x899D0BE, 0x899E8C5, 0x89A00E6, 0x89A2007, 0x89A301E,
  0x89A4007, 0x89A501E, 0x89A6807, 0x89A83C5, 0x89ABBC7, 0x89AE01E, 0x89B0805, 0x89B1807,
  0x89B281E, 0x89B6006, 0x89B781E, 0x89BA006, 0x89BF81E, 0x89C50BE, 0x89C5805, 0x89C73C5,
  0x89C781E, 0x89DB0BE, 0x89DB805, 0x89DD007, 0x89E08DE, 0x89E1007, 0x89E2BC7, 0x89E301E,
  0x89E58FE, 0x89E70E6, 0x89E80E6, 0x89E90A6, 0x89E9805, 0x89EB25E, 0x89EC012, 0x89F001E,
  0x89F1006, 0x89FF81E, 0x8A1A005, 0x8A1B807, 0x8A1F806, 0x8A20807, 0x8A228C7, 0x8A23006,
  0x8A25005, 0x8A27812, 0x8A2C809, 0x8A2E25E, 0x8A2F246, 0x8A30805, 0x8A3F81E, 0x8A57805,
  0x8A59007, 0x8A5C8C7, 0x8A5D006, 0x8A5F007, 0x8A608C7, 0x8A61806, 0x8A630B2, 0x8A63805,
  0x8A6781E, 0x8A6C809, 0x8ABF81E, 0x8AD7005, 0x8AD8807, 0x8ADA806, 0x8ADB81E, 0x8ADD807,
  0x8ADF0C7, 0x8AE0006, 0x8AEB812, 0x8AED805, 0x8AEE806, 0x8AFF81E, 0x8B17805, 0x8B19007,
  0x8B1D006, 0x8B1E8E6, 0x8B1F007, 0x8B20006, 0x8B22245, 0x8B2781E, 0x8B2C809, 0x8B2F81E,
  0x8B36012, 0x8B3F81E, 0x8B558A6, 0x8B568E6, 0x8B57807, 0x8B5B0C7, 0x8B5C0C5, 0x8B5C812,
  0x8B5F81E, 0x8B64809, 0x8B6781E, 0x8B71809, 0x8B7F81E, 0x8B8D005, 0x8B8EBC6, 0x8B8F8E6,
  0x8B90807, 0x8B930C7, 0x8B95806, 0x8B9781E, 0x8B9C809, 0x8B9D80B, 0x8B9FA56, 0x8BA3005,
  0x8BFF81E, 0x8C15805, 0x8C17007, 0x8C1C0C7, 0x8C1D8D2, 0x8C4F81E, 0x8C5F801, 0x8C6F802,
  0x8C74809, 0x8C7900B, 0x8C7F01E, 0x8C83005, 0x8C84BC5, 0x8C8581E, 0x8C8A0BE, 0x8C8B8BE,
  0x8C97805, 0x8C9B0FE, 0x8C9C007, 0x8C9D01E, 0x8C9E8C7, 0x8C9F8C5, 0x8CA08E5, 0x8CA18E6]

/-- src/Ystring/CharClassTables.hpp:32-500 (part 9) -/
def COMPLETE_CHAR_CLASSES_9 : List Nat := [
  0x8CA3012, 0x8CA781E, 0x8CAC809, 0x8CCF81E, 0x8CD3805, 0x8CD481E, 0x8CE8005, 0x8CE9807,
  0x8CEB806, 0x8CEC81E, 0x8CED806, 0x8CF00E6, 0x8CF10B2, 0x8CF20A7, 0x8D003C5, 0x8D05006,
  0x8D19005, 0x8D1C8C7, 0x8D1D005, 0x8D1F006, 0x8D23A46, 0x8D283C5, 0x8D2B006, 0x8D2C007,
  0x8D2D806, 0x8D44805, 0x8D4B8C7, 0x8D4C806, 0x8D4EA45, 0x8D51012, 0x8D5781E, 0x8D7C005,
  0x8D7F81E, 0x8D84812, 0x8DDF81E, 0x8DF08B2, 0x8DF781E, 0x8DFC809, 0x8DFF81E, 0x8E048BE,
  0x8E178A7, 0x8E1B8DE, 0x8E1F0C7, 0x8E200C5, 0x8E22812, 0x8E2781E, 0x8E2C809, 0x8E3600B,
  0x8E3781E, 0x8E38812, 0x8E47805, 0x8E4881E, 0x8E540DE, 0x8E54807, 0x8E588C7, 0x8E5A0C7,
  0x8E5B006, 0x8E7F81E, 0x8E838BE, 0x8E850BE, 0x8E98005, 0x8E9B006, 0x8E9D3C6, 0x8E9D81E,
  0x8E9F0DE, 0x8EA30C5, 0x8EA3806, 0x8EA781E, 0x8EAC809, 0x8EAF81E, 0x8EB30BE, 0x8EB48BE,
  0x8EC4805, 0x8EC78FE, 0x8EC90DE, 0x8ECA8E6, 0x8ECB8E6, 0x8ECC005, 0x8ECF81E, 0x8ED4809,
  0x8F6F81E, 0x8F79005, 0x8F7A006, 0x8F7B007, 0x8F7C012, 0x8F7F81E, 0x8F810C5, 0x8F81807,
  0x8F888BE, 0x8F99805, 0x8F9A807, 0x8F9D006, 0x8F9E81E, 0x8FA00E6, 0x8FA10E6, 0x8FA7812,
  0x8FAD126, 0x8FD83C5, 0x8FDF81E, 0x8FEA00B, 0x8FEE016, 0x8FF0014, 0x8FF8816, 0x8FFFBD2,
  0x91CC805, 0x91FF81E, 0x923795E, 0x923A012, 0x923F81E, 0x92A1805, 0x97C781E, 0x97F8005,
  0x97F9012, 0x97FF81E, 0x9A17805, 0x9A20366, 0x9A23005, 0x9A2A806, 0x9A2F81E, 0xA1FD005,
  0xA1FF81E, 0xA323005, 0xB07F81E, 0xB08E805, 0xB094806, 0xB096007, 0xB097806, 0xB09C809,
  0xB3FF81E, 0xB51C005, 0xB51F81E, 0xB52F8BE, 0xB534809, 0xB53681E, 0xB537812, 0xB55F8BE,
  0xB564809, 0xB56781E, 0xB576805, 0xB57781E, 0xB57A8D2, 0xB57F81E, 0xB597805, 0xB59B006,
  0xB59D812, 0xB59F816, 0xB5A2092, 0xB5A2816, 0xB5A781E, 0xB5AD13E, 0xB5B117E, 0xB5BB805,
  0xB5BE01E, 0xB5C7805, 0xB69F81E, 0xB6A1004, 0xB6B5005, 0xB6B6004, 0xB6B7812, 0xB6BC809,
  0xB71F81E, 0xB72F801, 0xB73F802, 0xB74B00B, 0xB74D012, 0xB77F81E, 0xB7A5005, 0xB7A7BC6,
  0xB7A8005, 0xB7C3807, 0xB7C701E, 0xB7C9006, 0xB7CF804, 0xB7EF81E, 0xB7F1092, 0xB7F2086,
  0xB7F781E, 0xB7F8807, 0xB8003C5, 0xC3FBBC5, 0xC3FF81E, 0xC66A805, 0xC67F01E, 0xC680005,
  0xC6843C5, 0xD7F781E, 0xD7FA09E, 0xD7FE09E, 0xD7FF89E, 0xD891005, 0xD8993C5, 0xD8A781E,
  0xD8A9005, 0xD8AABC5, 0xD8B181E, 0xD8B3805, 0xD8B781E, 0xD97D805, 0xDDFF81E, 0xDE35005]

/-- src/Ystring/CharClassTables.hpp:32-500 (part 10) -/
def COMPLETE_CHAR_CLASSES_10 : List Nat := [
  0xDE3781E, 0xDE3E005, 0xDE3F81E, 0xDE44005, 0xDE4781E, 0xDE4C805, 0xDE4E3D6, 0xDE4F8D2,
  0xDE5181B, 0xE5FF81E, 0xE677816, 0xE67C809, 0xE67F81E, 0xE759816, 0xE77F81E, 0xE796806,
  0xE79781E, 0xE7A3006, 0xE7A781E, 0xE7E1816, 0xE7FF81E, 0xE87A816, 0xE87F81E, 0xE893016,
  0xE89401E, 0xE8B2016, 0xE8B3007, 0xE8B4806, 0xE8B6016, 0xE8B9007, 0xE8BD01B, 0xE8C1006,
  0xE8C2016, 0xE8C5806, 0xE8D4816, 0xE8D6806, 0xE8F5016, 0xE8FF81E, 0xE920816, 0xE9228D6,
  0xE95F81E, 0xE96980B, 0xE96F81E, 0xE97980B, 0xE97F81E, 0xE9AB016, 0xE9AF81E, 0xE9BC00B,
  0xE9FF81E, 0xEA0C801, 0xEA19802, 0xEA26801, 0xEA2A85E, 0xEA33802, 0xEA40801, 0xEA4E041,
  0xEA4E81E, 0xEA4F801, 0xEA513C1, 0xEA5201E, 0xEA53001, 0xEA5401E, 0xEA5683E, 0xEA5A801,
  0xEA5D05E, 0xEA5E05E, 0xEA6205E, 0xEA67802, 0xEA74801, 0xEA81802, 0xEA8303E, 0xEA85001,
  0xEA8601E, 0xEA8A83E, 0xEA8E83E, 0xEA9B802, 0xEA9D03E, 0xEA9F83E, 0xEAA283E, 0xEAA3001,
  0xEAA481E, 0xEAA883E, 0xEAB5802, 0xEAC2801, 0xEACF802, 0xEADC801, 0xEAE9802, 0xEAF6801,
  0xEB03802, 0xEB10801, 0xEB1D802, 0xEB2A801, 0xEB37802, 0xEB44801, 0xEB52802, 0xEB5381E,
  0xEB60833, 0xEB6D853, 0xEB70802, 0xEB7D833, 0xEB8A853, 0xEB8D802, 0xEB9A833, 0xEBA7853,
  0xEBAA802, 0xEBB7833, 0xEBC4853, 0xEBC7802, 0xEBD4833, 0xEBE1853, 0xEBE4802, 0xEBE5C02,
  0xEBE681E, 0xEBFF809, 0xECFF816, 0xED1B006, 0xED1D016, 0xED36006, 0xED3AAC6, 0xED422C6,
  0xED43016, 0xED45812, 0xED4D01E, 0xED500DE, 0xED57806, 0xEF7F81E, 0xEF85045, 0xEF8F002,
  0xEF9201E, 0xEF95002, 0xEFFF81E, 0xF0038DE, 0xF00C006, 0xF00D01E, 0xF0110DE, 0xF0128DE,
  0xF015006, 0xF01781E, 0xF036804, 0xF047BC6, 0xF07F81E, 0xF096005, 0xF09781E, 0xF09B006,
  0xF09E804, 0xF09F81E, 0xF0A4809, 0xF0A73C5, 0xF0A7816, 0xF14781E, 0xF1570A6, 0xF15F81E,
  0xF175805, 0xF177806, 0xF17C809, 0xF17FBD4, 0xF26781E, 0xF2758A4, 0xF277806, 0xF27C809,
  0xF2E781E, 0xF2F6805, 0xF2F80C5, 0xF2FD009, 0xF2FFBD2, 0xF3EF81E, 0xF3F38BE, 0xF3F60BE,
  0xF3F78BE, 0xF3FF8BE, 0xF462005, 0xF46301E, 0xF46780B, 0xF46B006, 0xF47F81E, 0xF490801,
  0xF4A1802, 0xF4A58C4, 0xF4A781E, 0xF4AC809, 0xF4AE81E, 0xF4AF812, 0xF63801E, 0xF656176,
  0xF658174, 0xF65A00B, 0xF68001E, 0xF697176, 0xF69E80B, 0xF6FF81E, 0xF7020BE, 0xF7100BE,
  0xF7118BE, 0xF712005, 0xF713BC5, 0xF71401E, 0xF7198BE, 0xF71C0BE, 0xF71D0BE, 0xF71D805]

/-- src/Ystring/CharClassTables.hpp:32-500 (part 11) -/
def COMPLETE_CHAR_CLASSES_11 : List Nat := [
  0xF7213C5, 0xF723BC5, 0xF724BC5, 0xF725BC5, 0xF72601E, 0xF7280BE, 0xF7298BE, 0xF72A005,
  0xF72BBC5, 0xF72CBC5, 0xF72DBC5, 0xF72EBC5, 0xF72FBC5, 0xF73001E, 0xF7318BE, 0xF732005,
  0xF73301E, 0xF7358BE, 0xF7398BE, 0xF73C0BE, 0xF73E8BE, 0xF73F8BE, 0xF7450BE, 0xF74D805,
  0xF75001E, 0xF7520BE, 0xF7550BE, 0xF75D805, 0xF77781E, 0xF778813, 0xF7FF81E, 0xF815816,
  0xF81781E, 0xF849816, 0xF84F81E, 0xF857016, 0xF85801E, 0xF8602DE, 0xF8682DE, 0xF87A816,
  0xF87F81E, 0xF88600B, 0xF8D6816, 0xF8F281E, 0xF901016, 0xF90781E, 0xF91D816, 0xF91F81E,
  0xF924016, 0xF92781E, 0xF928816, 0xF92F81E, 0xF932816, 0xF97F81E, 0xF9FD016, 0xF9FF815,
  0xFB6B816, 0xFB6D81E, 0xFB76016, 0xFB7781E, 0xFB7E016, 0xFB7F81E, 0xFBBB016, 0xFBBD01E,
  0xFBEC816, 0xFBEF81E, 0xFBF5816, 0xFBF83D6, 0xFBFF81E, 0xFC05816, 0xFC0781E, 0xFC23816,
  0xFC2781E, 0xFC2C816, 0xFC2F81E, 0xFC43816, 0xFC4781E, 0xFC56816, 0xFC5781E, 0xFC5D816,
  0xFC5F81E, 0xFC60816, 0xFC7F81E, 0xFD29816, 0xFD2F81E, 0xFD36816, 0xFD3781E, 0xFD3E016,
  0xFD3F81E, 0xFD44816, 0xFD4701E, 0xFD63016, 0xFD6681E, 0xFD6E016, 0xFD6F01E, 0xFD74816,
  0xFD7781E, 0xFD7C016, 0xFD7F81E, 0xFDC9ADE, 0xFDF7816, 0xFDFC809, 0x100003C5, 0x1536FBC5,
  0x153803C5, 0x15B9CBC5, 0x15B9F81E, 0x15C0E805, 0x15C103C5, 0x16750BC5, 0x167583C5, 0x175F03C5,
  0x175F83C5, 0x1772EBC5, 0x17BFF81E, 0x17D0E805, 0x180003C5, 0x189A53C5, 0x189A83C5, 0x191D7BC5,
  0x70000BDB, 0x7000F81E, 0x7003F81B, 0x7007F81E, 0x700F7806, 0x77FFF81E, 0x7FFFE81D, 0x7FFFF81E,
  0x87FFE81D]

/-- src/Ystring/CharClassTables.hpp:32-500 (2329 entries) -/
def COMPLETE_CHAR_CLASSES : List Nat :=
  COMPLETE_CHAR_CLASSES_0 ++ (COMPLETE_CHAR_CLASSES_1 ++ (COMPLETE_CHAR_CLASSES_2 ++ (COMPLETE_CHAR_CLASSES_3 ++ (COMPLETE_CHAR_CLASSES_4 ++ (COMPLETE_CHAR_CLASSES_5 ++ (COMPLETE_CHAR_CLASSES_6 ++ (COMPLETE_CHAR_CLASSES_7 ++ (COMPLETE_CHAR_CLASSES_8 ++ (COMPLETE_CHAR_CLASSES_9 ++ (COMPLETE_CHAR_CLASSES_10 ++ (COMPLETE_CHAR_CLASSES_11)))))))))))

end Ystring
