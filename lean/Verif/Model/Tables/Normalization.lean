/- src/Ystring/NormalizationTables.hpp
   Generated by tools/gen_tables.py; do not edit. -/
namespace Ystring

/-- src/Ystring/NormalizationTables.hpp:12-363 (part 0) -/
def TO_DECOMPOSED_0 : List Nat := [
  0xC00004100300, 0xC10004100301, 0xC20004100302, 0xC30004100303, 0xC40004100308, 0xC5000410030A, 0xC70004300327, 0xC80004500300,
  0xC90004500301, 0xCA0004500302, 0xCB0004500308, 0xCC0004900300, 0xCD0004900301, 0xCE0004900302, 0xCF0004900308, 0xD10004E00303,
  0xD20004F00300, 0xD30004F00301, 0xD40004F00302, 0xD50004F00303, 0xD60004F00308, 0xD90005500300, 0xDA0005500301, 0xDB0005500302,
  0xDC0005500308, 0xDD0005900301, 0xE00006100300, 0xE10006100301, 0xE20006100302, 0xE30006100303, 0xE40006100308, 0xE5000610030A,
  0xE70006300327, 0xE80006500300, 0xE90006500301, 0xEA0006500302, 0xEB0006500308, 0xEC0006900300, 0xED0006900301, 0xEE0006900302,
  0xEF0006900308, 0xF10006E00303, 0xF20006F00300, 0xF30006F00301, 0xF40006F00302, 0xF50006F00303, 0xF60006F00308, 0xF90007500300,
  0xFA0007500301, 0xFB0007500302, 0xFC0007500308, 0xFD0007900301, 0xFF0007900308, 0x1000004100304, 0x1010006100304, 0x1020004100306,
  0x1030006100306, 0x1040004100328, 0x1050006100328, 0x1060004300301, 0x1070006300301, 0x1080004300302, 0x1090006300302, 0x10A0004300307,
  0x10B0006300307, 0x10C000430030C, 0x10D000630030C, 0x10E000440030C, 0x10F000640030C, 0x1120004500304, 0x1130006500304, 0x1140004500306,
  0x1150006500306, 0x1160004500307, 0x1170006500307, 0x1180004500328, 0x1190006500328, 0x11A000450030C, 0x11B000650030C, 0x11C0004700302,
  0x11D0006700302, 0x11E0004700306, 0x11F0006700306, 0x1200004700307, 0x1210006700307, 0x1220004700327, 0x1230006700327, 0x1240004800302,
  0x1250006800302, 0x1280004900303, 0x1290006900303, 0x12A0004900304, 0x12B0006900304, 0x12C0004900306, 0x12D0006900306, 0x12E0004900328,
  0x12F0006900328, 0x1300004900307, 0x1340004A00302, 0x1350006A00302, 0x1360004B00327, 0x1370006B00327, 0x1390004C00301, 0x13A0006C00301,
  0x13B0004C00327, 0x13C0006C00327, 0x13D0004C0030C, 0x13E0006C0030C, 0x1430004E00301, 0x1440006E00301, 0x1450004E00327, 0x1460006E00327,
  0x1470004E0030C, 0x1480006E0030C, 0x14C0004F00304, 0x14D0006F00304, 0x14E0004F00306, 0x14F0006F00306, 0x1500004F0030B, 0x1510006F0030B,
  0x1540005200301, 0x1550007200301, 0x1560005200327, 0x1570007200327, 0x158000520030C, 0x159000720030C, 0x15A0005300301, 0x15B0007300301,
  0x15C0005300302, 0x15D0007300302, 0x15E0005300327, 0x15F0007300327, 0x160000530030C, 0x161000730030C, 0x1620005400327, 0x1630007400327,
  0x164000540030C, 0x165000740030C, 0x1680005500303, 0x1690007500303, 0x16A0005500304, 0x16B0007500304, 0x16C0005500306, 0x16D0007500306,
  0x16E000550030A, 0x16F000750030A, 0x170000550030B, 0x171000750030B, 0x1720005500328, 0x1730007500328, 0x1740005700302, 0x1750007700302,
  0x1760005900302, 0x1770007900302, 0x1780005900308, 0x1790005A00301, 0x17A0007A00301, 0x17B0005A00307, 0x17C0007A00307, 0x17D0005A0030C,
  0x17E0007A0030C, 0x1A00004F0031B, 0x1A10006F0031B, 0x1AF000550031B, 0x1B0000750031B, 0x1CD000410030C, 0x1CE000610030C, 0x1CF000490030C,
  0x1D0000690030C, 0x1D10004F0030C, 0x1D20006F0030C, 0x1D3000550030C, 0x1D4000750030C, 0x1D5000DC00304, 0x1D6000FC00304, 0x1D7000DC00301,
  0x1D8000FC00301, 0x1D9000DC0030C, 0x1DA000FC0030C, 0x1DB000DC00300, 0x1DC000FC00300, 0x1DE000C400304, 0x1DF000E400304, 0x1E00022600304,
  0x1E10022700304, 0x1E2000C600304, 0x1E3000E600304, 0x1E6000470030C, 0x1E7000670030C, 0x1E80004B0030C, 0x1E90006B0030C, 0x1EA0004F00328,
  0x1EB0006F00328, 0x1EC001EA00304, 0x1ED001EB00304, 0x1EE001B70030C, 0x1EF002920030C, 0x1F00006A0030C, 0x1F40004700301, 0x1F50006700301]

/-- src/Ystring/NormalizationTables.hpp:12-363 (part 1) -/
def TO_DECOMPOSED_1 : List Nat := [
  0x1F80004E00300, 0x1F90006E00300, 0x1FA000C500301, 0x1FB000E500301, 0x1FC000C600301, 0x1FD000E600301, 0x1FE000D800301, 0x1FF000F800301,
  0x200000410030F, 0x201000610030F, 0x2020004100311, 0x2030006100311, 0x204000450030F, 0x205000650030F, 0x2060004500311, 0x2070006500311,
  0x208000490030F, 0x209000690030F, 0x20A0004900311, 0x20B0006900311, 0x20C0004F0030F, 0x20D0006F0030F, 0x20E0004F00311, 0x20F0006F00311,
  0x210000520030F, 0x211000720030F, 0x2120005200311, 0x2130007200311, 0x214000550030F, 0x215000750030F, 0x2160005500311, 0x2170007500311,
  0x2180005300326, 0x2190007300326, 0x21A0005400326, 0x21B0007400326, 0x21E000480030C, 0x21F000680030C, 0x2260004100307, 0x2270006100307,
  0x2280004500327, 0x2290006500327, 0x22A000D600304, 0x22B000F600304, 0x22C000D500304, 0x22D000F500304, 0x22E0004F00307, 0x22F0006F00307,
  0x2300022E00304, 0x2310022F00304, 0x2320005900304, 0x2330007900304, 0x3440030800301, 0x385000A800301, 0x3860039100301, 0x3880039500301,
  0x3890039700301, 0x38A0039900301, 0x38C0039F00301, 0x38E003A500301, 0x38F003A900301, 0x390003CA00301, 0x3AA0039900308, 0x3AB003A500308,
  0x3AC003B100301, 0x3AD003B500301, 0x3AE003B700301, 0x3AF003B900301, 0x3B0003CB00301, 0x3CA003B900308, 0x3CB003C500308, 0x3CC003BF00301,
  0x3CD003C500301, 0x3CE003C900301, 0x3D3003D200301, 0x3D4003D200308, 0x4000041500300, 0x4010041500308, 0x4030041300301, 0x4070040600308,
  0x40C0041A00301, 0x40D0041800300, 0x40E0042300306, 0x4190041800306, 0x4390043800306, 0x4500043500300, 0x4510043500308, 0x4530043300301,
  0x4570045600308, 0x45C0043A00301, 0x45D0043800300, 0x45E0044300306, 0x476004740030F, 0x477004750030F, 0x4C10041600306, 0x4C20043600306,
  0x4D00041000306, 0x4D10043000306, 0x4D20041000308, 0x4D30043000308, 0x4D60041500306, 0x4D70043500306, 0x4DA004D800308, 0x4DB004D900308,
  0x4DC0041600308, 0x4DD0043600308, 0x4DE0041700308, 0x4DF0043700308, 0x4E20041800304, 0x4E30043800304, 0x4E40041800308, 0x4E50043800308,
  0x4E60041E00308, 0x4E70043E00308, 0x4EA004E800308, 0x4EB004E900308, 0x4EC0042D00308, 0x4ED0044D00308, 0x4EE0042300304, 0x4EF0044300304,
  0x4F00042300308, 0x4F10044300308, 0x4F2004230030B, 0x4F3004430030B, 0x4F40042700308, 0x4F50044700308, 0x4F80042B00308, 0x4F90044B00308,
  0x6220062700653, 0x6230062700654, 0x6240064800654, 0x6250062700655, 0x6260064A00654, 0x6C0006D500654, 0x6C2006C100654, 0x6D3006D200654,
  0x929009280093C, 0x931009300093C, 0x934009330093C, 0x958009150093C, 0x959009160093C, 0x95A009170093C, 0x95B0091C0093C, 0x95C009210093C,
  0x95D009220093C, 0x95E0092B0093C, 0x95F0092F0093C, 0x9CB009C7009BE, 0x9CC009C7009D7, 0x9DC009A1009BC, 0x9DD009A2009BC, 0x9DF009AF009BC,
  0xA3300A3200A3C, 0xA3600A3800A3C, 0xA5900A1600A3C, 0xA5A00A1700A3C, 0xA5B00A1C00A3C, 0xA5E00A2B00A3C, 0xB4800B4700B56, 0xB4B00B4700B3E,
  0xB4C00B4700B57, 0xB5C00B2100B3C, 0xB5D00B2200B3C, 0xB9400B9200BD7, 0xBCA00BC600BBE, 0xBCB00BC700BBE, 0xBCC00BC600BD7, 0xC4800C4600C56,
  0xCC000CBF00CD5, 0xCC700CC600CD5, 0xCC800CC600CD6, 0xCCA00CC600CC2, 0xCCB00CCA00CD5, 0xD4A00D4600D3E, 0xD4B00D4700D3E, 0xD4C00D4600D57,
  0xDDA00DD900DCA, 0xDDC00DD900DCF, 0xDDD00DDC00DCA, 0xDDE00DD900DDF, 0xF4300F4200FB7, 0xF4D00F4C00FB7, 0xF5200F5100FB7, 0xF5700F5600FB7,
  0xF5C00F5B00FB7, 0xF6900F4000FB5, 0xF7300F7100F72, 0xF7500F7100F74, 0xF7600FB200F80, 0xF7800FB300F80, 0xF8100F7100F80, 0xF9300F9200FB7,
  0xF9D00F9C00FB7, 0xFA200FA100FB7, 0xFA700FA600FB7, 0xFAC00FAB00FB7, 0xFB900F9000FB5, 0x1026010250102E, 0x1B0601B0501B35, 0x1B0801B0701B35]

/-- src/Ystring/NormalizationTables.hpp:12-363 (part 2) -/
def TO_DECOMPOSED_2 : List Nat := [
  0x1B0A01B0901B35, 0x1B0C01B0B01B35, 0x1B0E01B0D01B35, 0x1B1201B1101B35, 0x1B3B01B3A01B35, 0x1B3D01B3C01B35, 0x1B4001B3E01B35, 0x1B4101B3F01B35,
  0x1B4301B4201B35, 0x1E000004100325, 0x1E010006100325, 0x1E020004200307, 0x1E030006200307, 0x1E040004200323, 0x1E050006200323, 0x1E060004200331,
  0x1E070006200331, 0x1E08000C700301, 0x1E09000E700301, 0x1E0A0004400307, 0x1E0B0006400307, 0x1E0C0004400323, 0x1E0D0006400323, 0x1E0E0004400331,
  0x1E0F0006400331, 0x1E100004400327, 0x1E110006400327, 0x1E12000440032D, 0x1E13000640032D, 0x1E140011200300, 0x1E150011300300, 0x1E160011200301,
  0x1E170011300301, 0x1E18000450032D, 0x1E19000650032D, 0x1E1A0004500330, 0x1E1B0006500330, 0x1E1C0022800306, 0x1E1D0022900306, 0x1E1E0004600307,
  0x1E1F0006600307, 0x1E200004700304, 0x1E210006700304, 0x1E220004800307, 0x1E230006800307, 0x1E240004800323, 0x1E250006800323, 0x1E260004800308,
  0x1E270006800308, 0x1E280004800327, 0x1E290006800327, 0x1E2A000480032E, 0x1E2B000680032E, 0x1E2C0004900330, 0x1E2D0006900330, 0x1E2E000CF00301,
  0x1E2F000EF00301, 0x1E300004B00301, 0x1E310006B00301, 0x1E320004B00323, 0x1E330006B00323, 0x1E340004B00331, 0x1E350006B00331, 0x1E360004C00323,
  0x1E370006C00323, 0x1E3801E3600304, 0x1E3901E3700304, 0x1E3A0004C00331, 0x1E3B0006C00331, 0x1E3C0004C0032D, 0x1E3D0006C0032D, 0x1E3E0004D00301,
  0x1E3F0006D00301, 0x1E400004D00307, 0x1E410006D00307, 0x1E420004D00323, 0x1E430006D00323, 0x1E440004E00307, 0x1E450006E00307, 0x1E460004E00323,
  0x1E470006E00323, 0x1E480004E00331, 0x1E490006E00331, 0x1E4A0004E0032D, 0x1E4B0006E0032D, 0x1E4C000D500301, 0x1E4D000F500301, 0x1E4E000D500308,
  0x1E4F000F500308, 0x1E500014C00300, 0x1E510014D00300, 0x1E520014C00301, 0x1E530014D00301, 0x1E540005000301, 0x1E550007000301, 0x1E560005000307,
  0x1E570007000307, 0x1E580005200307, 0x1E590007200307, 0x1E5A0005200323, 0x1E5B0007200323, 0x1E5C01E5A00304, 0x1E5D01E5B00304, 0x1E5E0005200331,
  0x1E5F0007200331, 0x1E600005300307, 0x1E610007300307, 0x1E620005300323, 0x1E630007300323, 0x1E640015A00307, 0x1E650015B00307, 0x1E660016000307,
  0x1E670016100307, 0x1E6801E6200307, 0x1E6901E6300307, 0x1E6A0005400307, 0x1E6B0007400307, 0x1E6C0005400323, 0x1E6D0007400323, 0x1E6E0005400331,
  0x1E6F0007400331, 0x1E70000540032D, 0x1E71000740032D, 0x1E720005500324, 0x1E730007500324, 0x1E740005500330, 0x1E750007500330, 0x1E76000550032D,
  0x1E77000750032D, 0x1E780016800301, 0x1E790016900301, 0x1E7A0016A00308, 0x1E7B0016B00308, 0x1E7C0005600303, 0x1E7D0007600303, 0x1E7E0005600323,
  0x1E7F0007600323, 0x1E800005700300, 0x1E810007700300, 0x1E820005700301, 0x1E830007700301, 0x1E840005700308, 0x1E850007700308, 0x1E860005700307,
  0x1E870007700307, 0x1E880005700323, 0x1E890007700323, 0x1E8A0005800307, 0x1E8B0007800307, 0x1E8C0005800308, 0x1E8D0007800308, 0x1E8E0005900307,
  0x1E8F0007900307, 0x1E900005A00302, 0x1E910007A00302, 0x1E920005A00323, 0x1E930007A00323, 0x1E940005A00331, 0x1E950007A00331, 0x1E960006800331,
  0x1E970007400308, 0x1E98000770030A, 0x1E99000790030A, 0x1E9B0017F00307, 0x1EA00004100323, 0x1EA10006100323, 0x1EA20004100309, 0x1EA30006100309,
  0x1EA4000C200301, 0x1EA5000E200301, 0x1EA6000C200300, 0x1EA7000E200300, 0x1EA8000C200309, 0x1EA9000E200309, 0x1EAA000C200303, 0x1EAB000E200303,
  0x1EAC01EA000302, 0x1EAD01EA100302, 0x1EAE0010200301, 0x1EAF0010300301, 0x1EB00010200300, 0x1EB10010300300, 0x1EB20010200309, 0x1EB30010300309,
  0x1EB40010200303, 0x1EB50010300303, 0x1EB601EA000306, 0x1EB701EA100306, 0x1EB80004500323, 0x1EB90006500323, 0x1EBA0004500309, 0x1EBB0006500309,
  0x1EBC0004500303, 0x1EBD0006500303, 0x1EBE000CA00301, 0x1EBF000EA00301, 0x1EC0000CA00300, 0x1EC1000EA00300, 0x1EC2000CA00309, 0x1EC3000EA00309]

/-- src/Ystring/NormalizationTables.hpp:12-363 (part 3) -/
def TO_DECOMPOSED_3 : List Nat := [
  0x1EC4000CA00303, 0x1EC5000EA00303, 0x1EC601EB800302, 0x1EC701EB900302, 0x1EC80004900309, 0x1EC90006900309, 0x1ECA0004900323, 0x1ECB0006900323,
  0x1ECC0004F00323, 0x1ECD0006F00323, 0x1ECE0004F00309, 0x1ECF0006F00309, 0x1ED0000D400301, 0x1ED1000F400301, 0x1ED2000D400300, 0x1ED3000F400300,
  0x1ED4000D400309, 0x1ED5000F400309, 0x1ED6000D400303, 0x1ED7000F400303, 0x1ED801ECC00302, 0x1ED901ECD00302, 0x1EDA001A000301, 0x1EDB001A100301,
  0x1EDC001A000300, 0x1EDD001A100300, 0x1EDE001A000309, 0x1EDF001A100309, 0x1EE0001A000303, 0x1EE1001A100303, 0x1EE2001A000323, 0x1EE3001A100323,
  0x1EE40005500323, 0x1EE50007500323, 0x1EE60005500309, 0x1EE70007500309, 0x1EE8001AF00301, 0x1EE9001B000301, 0x1EEA001AF00300, 0x1EEB001B000300,
  0x1EEC001AF00309, 0x1EED001B000309, 0x1EEE001AF00303, 0x1EEF001B000303, 0x1EF0001AF00323, 0x1EF1001B000323, 0x1EF20005900300, 0x1EF30007900300,
  0x1EF40005900323, 0x1EF50007900323, 0x1EF60005900309, 0x1EF70007900309, 0x1EF80005900303, 0x1EF90007900303, 0x1F00003B100313, 0x1F01003B100314,
  0x1F0201F0000300, 0x1F0301F0100300, 0x1F0401F0000301, 0x1F0501F0100301, 0x1F0601F0000342, 0x1F0701F0100342, 0x1F080039100313, 0x1F090039100314,
  0x1F0A01F0800300, 0x1F0B01F0900300, 0x1F0C01F0800301, 0x1F0D01F0900301, 0x1F0E01F0800342, 0x1F0F01F0900342, 0x1F10003B500313, 0x1F11003B500314,
  0x1F1201F1000300, 0x1F1301F1100300, 0x1F1401F1000301, 0x1F1501F1100301, 0x1F180039500313, 0x1F190039500314, 0x1F1A01F1800300, 0x1F1B01F1900300,
  0x1F1C01F1800301, 0x1F1D01F1900301, 0x1F20003B700313, 0x1F21003B700314, 0x1F2201F2000300, 0x1F2301F2100300, 0x1F2401F2000301, 0x1F2501F2100301,
  0x1F2601F2000342, 0x1F2701F2100342, 0x1F280039700313, 0x1F290039700314, 0x1F2A01F2800300, 0x1F2B01F2900300, 0x1F2C01F2800301, 0x1F2D01F2900301,
  0x1F2E01F2800342, 0x1F2F01F2900342, 0x1F30003B900313, 0x1F31003B900314, 0x1F3201F3000300, 0x1F3301F3100300, 0x1F3401F3000301, 0x1F3501F3100301,
  0x1F3601F3000342, 0x1F3701F3100342, 0x1F380039900313, 0x1F390039900314, 0x1F3A01F3800300, 0x1F3B01F3900300, 0x1F3C01F3800301, 0x1F3D01F3900301,
  0x1F3E01F3800342, 0x1F3F01F3900342, 0x1F40003BF00313, 0x1F41003BF00314, 0x1F4201F4000300, 0x1F4301F4100300, 0x1F4401F4000301, 0x1F4501F4100301,
  0x1F480039F00313, 0x1F490039F00314, 0x1F4A01F4800300, 0x1F4B01F4900300, 0x1F4C01F4800301, 0x1F4D01F4900301, 0x1F50003C500313, 0x1F51003C500314,
  0x1F5201F5000300, 0x1F5301F5100300, 0x1F5401F5000301, 0x1F5501F5100301, 0x1F5601F5000342, 0x1F5701F5100342, 0x1F59003A500314, 0x1F5B01F5900300,
  0x1F5D01F5900301, 0x1F5F01F5900342, 0x1F60003C900313, 0x1F61003C900314, 0x1F6201F6000300, 0x1F6301F6100300, 0x1F6401F6000301, 0x1F6501F6100301,
  0x1F6601F6000342, 0x1F6701F6100342, 0x1F68003A900313, 0x1F69003A900314, 0x1F6A01F6800300, 0x1F6B01F6900300, 0x1F6C01F6800301, 0x1F6D01F6900301,
  0x1F6E01F6800342, 0x1F6F01F6900342, 0x1F70003B100300, 0x1F72003B500300, 0x1F74003B700300, 0x1F76003B900300, 0x1F78003BF00300, 0x1F7A003C500300,
  0x1F7C003C900300, 0x1F8001F0000345, 0x1F8101F0100345, 0x1F8201F0200345, 0x1F8301F0300345, 0x1F8401F0400345, 0x1F8501F0500345, 0x1F8601F0600345,
  0x1F8701F0700345, 0x1F8801F0800345, 0x1F8901F0900345, 0x1F8A01F0A00345, 0x1F8B01F0B00345, 0x1F8C01F0C00345, 0x1F8D01F0D00345, 0x1F8E01F0E00345,
  0x1F8F01F0F00345, 0x1F9001F2000345, 0x1F9101F2100345, 0x1F9201F2200345, 0x1F9301F2300345, 0x1F9401F2400345, 0x1F9501F2500345, 0x1F9601F2600345,
  0x1F9701F2700345, 0x1F9801F2800345, 0x1F9901F2900345, 0x1F9A01F2A00345, 0x1F9B01F2B00345, 0x1F9C01F2C00345, 0x1F9D01F2D00345, 0x1F9E01F2E00345,
  0x1F9F01F2F00345, 0x1FA001F6000345, 0x1FA101F6100345, 0x1FA201F6200345, 0x1FA301F6300345, 0x1FA401F6400345, 0x1FA501F6500345, 0x1FA601F6600345]

/-- src/Ystring/NormalizationTables.hpp:12-363 (part 4) -/
def TO_DECOMPOSED_4 : List Nat := [
  0x1FA701F6700345, 0x1FA801F6800345, 0x1FA901F6900345, 0x1FAA01F6A00345, 0x1FAB01F6B00345, 0x1FAC01F6C00345, 0x1FAD01F6D00345, 0x1FAE01F6E00345,
  0x1FAF01F6F00345, 0x1FB0003B100306, 0x1FB1003B100304, 0x1FB201F7000345, 0x1FB3003B100345, 0x1FB4003AC00345, 0x1FB6003B100342, 0x1FB701FB600345,
  0x1FB80039100306, 0x1FB90039100304, 0x1FBA0039100300, 0x1FBC0039100345, 0x1FC1000A800342, 0x1FC201F7400345, 0x1FC3003B700345, 0x1FC4003AE00345,
  0x1FC6003B700342, 0x1FC701FC600345, 0x1FC80039500300, 0x1FCA0039700300, 0x1FCC0039700345, 0x1FCD01FBF00300, 0x1FCE01FBF00301, 0x1FCF01FBF00342,
  0x1FD0003B900306, 0x1FD1003B900304, 0x1FD2003CA00300, 0x1FD6003B900342, 0x1FD7003CA00342, 0x1FD80039900306, 0x1FD90039900304, 0x1FDA0039900300,
  0x1FDD01FFE00300, 0x1FDE01FFE00301, 0x1FDF01FFE00342, 0x1FE0003C500306, 0x1FE1003C500304, 0x1FE2003CB00300, 0x1FE4003C100313, 0x1FE5003C100314,
  0x1FE6003C500342, 0x1FE7003CB00342, 0x1FE8003A500306, 0x1FE9003A500304, 0x1FEA003A500300, 0x1FEC003A100314, 0x1FED000A800300, 0x1FF201F7C00345,
  0x1FF3003C900345, 0x1FF4003CE00345, 0x1FF6003C900342, 0x1FF701FF600345, 0x1FF80039F00300, 0x1FFA003A900300, 0x1FFC003A900345, 0x219A0219000338,
  0x219B0219200338, 0x21AE0219400338, 0x21CD021D000338, 0x21CE021D400338, 0x21CF021D200338, 0x22040220300338, 0x22090220800338, 0x220C0220B00338,
  0x22240222300338, 0x22260222500338, 0x22410223C00338, 0x22440224300338, 0x22470224500338, 0x22490224800338, 0x22600003D00338, 0x22620226100338,
  0x226D0224D00338, 0x226E0003C00338, 0x226F0003E00338, 0x22700226400338, 0x22710226500338, 0x22740227200338, 0x22750227300338, 0x22780227600338,
  0x22790227700338, 0x22800227A00338, 0x22810227B00338, 0x22840228200338, 0x22850228300338, 0x22880228600338, 0x22890228700338, 0x22AC022A200338,
  0x22AD022A800338, 0x22AE022A900338, 0x22AF022AB00338, 0x22E00227C00338, 0x22E10227D00338, 0x22E20229100338, 0x22E30229200338, 0x22EA022B200338,
  0x22EB022B300338, 0x22EC022B400338, 0x22ED022B500338, 0x2ADC02ADD00338, 0x304C0304B03099, 0x304E0304D03099, 0x30500304F03099, 0x30520305103099,
  0x30540305303099, 0x30560305503099, 0x30580305703099, 0x305A0305903099, 0x305C0305B03099, 0x305E0305D03099, 0x30600305F03099, 0x30620306103099,
  0x30650306403099, 0x30670306603099, 0x30690306803099, 0x30700306F03099, 0x30710306F0309A, 0x30730307203099, 0x3074030720309A, 0x30760307503099,
  0x3077030750309A, 0x30790307803099, 0x307A030780309A, 0x307C0307B03099, 0x307D0307B0309A, 0x30940304603099, 0x309E0309D03099, 0x30AC030AB03099,
  0x30AE030AD03099, 0x30B0030AF03099, 0x30B2030B103099, 0x30B4030B303099, 0x30B6030B503099, 0x30B8030B703099, 0x30BA030B903099, 0x30BC030BB03099,
  0x30BE030BD03099, 0x30C0030BF03099, 0x30C2030C103099, 0x30C5030C403099, 0x30C7030C603099, 0x30C9030C803099, 0x30D0030CF03099, 0x30D1030CF0309A,
  0x30D3030D203099, 0x30D4030D20309A, 0x30D6030D503099, 0x30D7030D50309A, 0x30D9030D803099, 0x30DA030D80309A, 0x30DC030DB03099, 0x30DD030DB0309A,
  0x30F4030A603099, 0x30F7030EF03099, 0x30F8030F003099, 0x30F9030F103099, 0x30FA030F203099, 0x30FE030FD03099, 0xFB1D005D9005B4, 0xFB1F005F2005B7,
  0xFB2A005E9005C1, 0xFB2B005E9005C2, 0xFB2C0FB49005C1, 0xFB2D0FB49005C2, 0xFB2E005D0005B7, 0xFB2F005D0005B8, 0xFB30005D0005BC, 0xFB31005D1005BC,
  0xFB32005D2005BC, 0xFB33005D3005BC, 0xFB34005D4005BC, 0xFB35005D5005BC, 0xFB36005D6005BC, 0xFB38005D8005BC, 0xFB39005D9005BC, 0xFB3A005DA005BC,
  0xFB3B005DB005BC, 0xFB3C005DC005BC, 0xFB3E005DE005BC, 0xFB40005E0005BC, 0xFB41005E1005BC, 0xFB43005E3005BC, 0xFB44005E4005BC, 0xFB46005E6005BC,
  0xFB47005E7005BC, 0xFB48005E8005BC, 0xFB49005E9005BC, 0xFB4A005EA005BC, 0xFB4B005D5005B9, 0xFB4C005D1005BF, 0xFB4D005DB005BF, 0xFB4E005E4005BF]

/-- src/Ystring/NormalizationTables.hpp:12-363 (part 5) -/
def TO_DECOMPOSED_5 : List Nat := [
  0x105C9105D200307, 0x105E4105DA00307, 0x1109A11099110BA, 0x1109C1109B110BA, 0x110AB110A5110BA, 0x1112E1113111127, 0x1112F1113211127, 0x1134B113471133E,
  0x1134C1134711357, 0x1138311382113C9, 0x1138511384113BB, 0x1138E1138B113C2, 0x1139111390113C9, 0x113C5113C2113C2, 0x113C7113C2113B8, 0x113C8113C2113C9,
  0x114BB114B9114BA, 0x114BC114B9114B0, 0x114BE114B9114BD, 0x115BA115B8115AF, 0x115BB115B9115AF, 0x119381193511930, 0x161211611E1611E, 0x161221611E16129,
  0x161231611E1611F, 0x16124161291611F, 0x161251611E16120, 0x16126161211611F, 0x16127161221611F, 0x161281612116120, 0x16D6816D6716D67, 0x16D6916D6316D67,
  0x16D6A16D6916D67, 0x1D15E1D1571D165, 0x1D15F1D1581D165, 0x1D1601D15F1D16E, 0x1D1611D15F1D16F, 0x1D1621D15F1D170, 0x1D1631D15F1D171, 0x1D1641D15F1D172,
  0x1D1BB1D1B91D165, 0x1D1BC1D1BA1D165, 0x1D1BD1D1BB1D16E, 0x1D1BE1D1BC1D16E, 0x1D1BF1D1BB1D16F, 0x1D1C01D1BC1D16F]

/-- src/Ystring/NormalizationTables.hpp:12-363 (1046 entries) -/
def TO_DECOMPOSED : List Nat :=
  TO_DECOMPOSED_0 ++ (TO_DECOMPOSED_1 ++ (TO_DECOMPOSED_2 ++ (TO_DECOMPOSED_3 ++ (TO_DECOMPOSED_4 ++ (TO_DECOMPOSED_5)))))

/-- src/Ystring/NormalizationTables.hpp:365-716 (part 0) -/
def TO_COMPOSED_0 : List Nat := [
  0x3C003380226E, 0x3D0033802260, 0x3E003380226F, 0x4100300000C0, 0x4100301000C1, 0x4100302000C2, 0x4100303000C3, 0x410030400100,
  0x410030600102, 0x410030700226, 0x4100308000C4, 0x410030901EA2, 0x410030A000C5, 0x410030C001CD, 0x410030F00200, 0x410031100202,
  0x410032301EA0, 0x410032501E00, 0x410032800104, 0x420030701E02, 0x420032301E04, 0x420033101E06, 0x430030100106, 0x430030200108,
  0x43003070010A, 0x430030C0010C, 0x4300327000C7, 0x440030701E0A, 0x440030C0010E, 0x440032301E0C, 0x440032701E10, 0x440032D01E12,
  0x440033101E0E, 0x4500300000C8, 0x4500301000C9, 0x4500302000CA, 0x450030301EBC, 0x450030400112, 0x450030600114, 0x450030700116,
  0x4500308000CB, 0x450030901EBA, 0x450030C0011A, 0x450030F00204, 0x450031100206, 0x450032301EB8, 0x450032700228, 0x450032800118,
  0x450032D01E18, 0x450033001E1A, 0x460030701E1E, 0x4700301001F4, 0x47003020011C, 0x470030401E20, 0x47003060011E, 0x470030700120,
  0x470030C001E6, 0x470032700122, 0x480030200124, 0x480030701E22, 0x480030801E26, 0x480030C0021E, 0x480032301E24, 0x480032701E28,
  0x480032E01E2A, 0x4900300000CC, 0x4900301000CD, 0x4900302000CE, 0x490030300128, 0x49003040012A, 0x49003060012C, 0x490030700130,
  0x4900308000CF, 0x490030901EC8, 0x490030C001CF, 0x490030F00208, 0x49003110020A, 0x490032301ECA, 0x49003280012E, 0x490033001E2C,
  0x4A0030200134, 0x4B0030101E30, 0x4B0030C001E8, 0x4B0032301E32, 0x4B0032700136, 0x4B0033101E34, 0x4C0030100139, 0x4C0030C0013D,
  0x4C0032301E36, 0x4C003270013B, 0x4C0032D01E3C, 0x4C0033101E3A, 0x4D0030101E3E, 0x4D0030701E40, 0x4D0032301E42, 0x4E00300001F8,
  0x4E0030100143, 0x4E00303000D1, 0x4E0030701E44, 0x4E0030C00147, 0x4E0032301E46, 0x4E0032700145, 0x4E0032D01E4A, 0x4E0033101E48,
  0x4F00300000D2, 0x4F00301000D3, 0x4F00302000D4, 0x4F00303000D5, 0x4F003040014C, 0x4F003060014E, 0x4F003070022E, 0x4F00308000D6,
  0x4F0030901ECE, 0x4F0030B00150, 0x4F0030C001D1, 0x4F0030F0020C, 0x4F003110020E, 0x4F0031B001A0, 0x4F0032301ECC, 0x4F00328001EA,
  0x500030101E54, 0x500030701E56, 0x520030100154, 0x520030701E58, 0x520030C00158, 0x520030F00210, 0x520031100212, 0x520032301E5A,
  0x520032700156, 0x520033101E5E, 0x53003010015A, 0x53003020015C, 0x530030701E60, 0x530030C00160, 0x530032301E62, 0x530032600218,
  0x53003270015E, 0x540030701E6A, 0x540030C00164, 0x540032301E6C, 0x54003260021A, 0x540032700162, 0x540032D01E70, 0x540033101E6E,
  0x5500300000D9, 0x5500301000DA, 0x5500302000DB, 0x550030300168, 0x55003040016A, 0x55003060016C, 0x5500308000DC, 0x550030901EE6,
  0x550030A0016E, 0x550030B00170, 0x550030C001D3, 0x550030F00214, 0x550031100216, 0x550031B001AF, 0x550032301EE4, 0x550032401E72,
  0x550032800172, 0x550032D01E76, 0x550033001E74, 0x560030301E7C, 0x560032301E7E, 0x570030001E80, 0x570030101E82, 0x570030200174,
  0x570030701E86, 0x570030801E84, 0x570032301E88, 0x580030701E8A, 0x580030801E8C, 0x590030001EF2, 0x5900301000DD, 0x590030200176,
  0x590030301EF8, 0x590030400232, 0x590030701E8E, 0x590030800178, 0x590030901EF6, 0x590032301EF4, 0x5A0030100179, 0x5A0030201E90,
  0x5A003070017B, 0x5A0030C0017D, 0x5A0032301E92, 0x5A0033101E94, 0x6100300000E0, 0x6100301000E1, 0x6100302000E2, 0x6100303000E3,
  0x610030400101, 0x610030600103, 0x610030700227, 0x6100308000E4, 0x610030901EA3, 0x610030A000E5, 0x610030C001CE, 0x610030F00201]

/-- src/Ystring/NormalizationTables.hpp:365-716 (part 1) -/
def TO_COMPOSED_1 : List Nat := [
  0x610031100203, 0x610032301EA1, 0x610032501E01, 0x610032800105, 0x620030701E03, 0x620032301E05, 0x620033101E07, 0x630030100107,
  0x630030200109, 0x63003070010B, 0x630030C0010D, 0x6300327000E7, 0x640030701E0B, 0x640030C0010F, 0x640032301E0D, 0x640032701E11,
  0x640032D01E13, 0x640033101E0F, 0x6500300000E8, 0x6500301000E9, 0x6500302000EA, 0x650030301EBD, 0x650030400113, 0x650030600115,
  0x650030700117, 0x6500308000EB, 0x650030901EBB, 0x650030C0011B, 0x650030F00205, 0x650031100207, 0x650032301EB9, 0x650032700229,
  0x650032800119, 0x650032D01E19, 0x650033001E1B, 0x660030701E1F, 0x6700301001F5, 0x67003020011D, 0x670030401E21, 0x67003060011F,
  0x670030700121, 0x670030C001E7, 0x670032700123, 0x680030200125, 0x680030701E23, 0x680030801E27, 0x680030C0021F, 0x680032301E25,
  0x680032701E29, 0x680032E01E2B, 0x680033101E96, 0x6900300000EC, 0x6900301000ED, 0x6900302000EE, 0x690030300129, 0x69003040012B,
  0x69003060012D, 0x6900308000EF, 0x690030901EC9, 0x690030C001D0, 0x690030F00209, 0x69003110020B, 0x690032301ECB, 0x69003280012F,
  0x690033001E2D, 0x6A0030200135, 0x6A0030C001F0, 0x6B0030101E31, 0x6B0030C001E9, 0x6B0032301E33, 0x6B0032700137, 0x6B0033101E35,
  0x6C003010013A, 0x6C0030C0013E, 0x6C0032301E37, 0x6C003270013C, 0x6C0032D01E3D, 0x6C0033101E3B, 0x6D0030101E3F, 0x6D0030701E41,
  0x6D0032301E43, 0x6E00300001F9, 0x6E0030100144, 0x6E00303000F1, 0x6E0030701E45, 0x6E0030C00148, 0x6E0032301E47, 0x6E0032700146,
  0x6E0032D01E4B, 0x6E0033101E49, 0x6F00300000F2, 0x6F00301000F3, 0x6F00302000F4, 0x6F00303000F5, 0x6F003040014D, 0x6F003060014F,
  0x6F003070022F, 0x6F00308000F6, 0x6F0030901ECF, 0x6F0030B00151, 0x6F0030C001D2, 0x6F0030F0020D, 0x6F003110020F, 0x6F0031B001A1,
  0x6F0032301ECD, 0x6F00328001EB, 0x700030101E55, 0x700030701E57, 0x720030100155, 0x720030701E59, 0x720030C00159, 0x720030F00211,
  0x720031100213, 0x720032301E5B, 0x720032700157, 0x720033101E5F, 0x73003010015B, 0x73003020015D, 0x730030701E61, 0x730030C00161,
  0x730032301E63, 0x730032600219, 0x73003270015F, 0x740030701E6B, 0x740030801E97, 0x740030C00165, 0x740032301E6D, 0x74003260021B,
  0x740032700163, 0x740032D01E71, 0x740033101E6F, 0x7500300000F9, 0x7500301000FA, 0x7500302000FB, 0x750030300169, 0x75003040016B,
  0x75003060016D, 0x7500308000FC, 0x750030901EE7, 0x750030A0016F, 0x750030B00171, 0x750030C001D4, 0x750030F00215, 0x750031100217,
  0x750031B001B0, 0x750032301EE5, 0x750032401E73, 0x750032800173, 0x750032D01E77, 0x750033001E75, 0x760030301E7D, 0x760032301E7F,
  0x770030001E81, 0x770030101E83, 0x770030200175, 0x770030701E87, 0x770030801E85, 0x770030A01E98, 0x770032301E89, 0x780030701E8B,
  0x780030801E8D, 0x790030001EF3, 0x7900301000FD, 0x790030200177, 0x790030301EF9, 0x790030400233, 0x790030701E8F, 0x7900308000FF,
  0x790030901EF7, 0x790030A01E99, 0x790032301EF5, 0x7A003010017A, 0x7A0030201E91, 0x7A003070017C, 0x7A0030C0017E, 0x7A0032301E93,
  0x7A0033101E95, 0xA80030001FED, 0xA80030100385, 0xA80034201FC1, 0xC20030001EA6, 0xC20030101EA4, 0xC20030301EAA, 0xC20030901EA8,
  0xC400304001DE, 0xC500301001FA, 0xC600301001FC, 0xC600304001E2, 0xC70030101E08, 0xCA0030001EC0, 0xCA0030101EBE, 0xCA0030301EC4,
  0xCA0030901EC2, 0xCF0030101E2E, 0xD40030001ED2, 0xD40030101ED0, 0xD40030301ED6, 0xD40030901ED4, 0xD50030101E4C, 0xD5003040022C]

/-- src/Ystring/NormalizationTables.hpp:365-716 (part 2) -/
def TO_COMPOSED_2 : List Nat := [
  0xD50030801E4E, 0xD6003040022A, 0xD800301001FE, 0xDC00300001DB, 0xDC00301001D7, 0xDC00304001D5, 0xDC0030C001D9, 0xE20030001EA7,
  0xE20030101EA5, 0xE20030301EAB, 0xE20030901EA9, 0xE400304001DF, 0xE500301001FB, 0xE600301001FD, 0xE600304001E3, 0xE70030101E09,
  0xEA0030001EC1, 0xEA0030101EBF, 0xEA0030301EC5, 0xEA0030901EC3, 0xEF0030101E2F, 0xF40030001ED3, 0xF40030101ED1, 0xF40030301ED7,
  0xF40030901ED5, 0xF50030101E4D, 0xF5003040022D, 0xF50030801E4F, 0xF6003040022B, 0xF800301001FF, 0xFC00300001DC, 0xFC00301001D8,
  0xFC00304001D6, 0xFC0030C001DA, 0x1020030001EB0, 0x1020030101EAE, 0x1020030301EB4, 0x1020030901EB2, 0x1030030001EB1, 0x1030030101EAF,
  0x1030030301EB5, 0x1030030901EB3, 0x1120030001E14, 0x1120030101E16, 0x1130030001E15, 0x1130030101E17, 0x14C0030001E50, 0x14C0030101E52,
  0x14D0030001E51, 0x14D0030101E53, 0x15A0030701E64, 0x15B0030701E65, 0x1600030701E66, 0x1610030701E67, 0x1680030101E78, 0x1690030101E79,
  0x16A0030801E7A, 0x16B0030801E7B, 0x17F0030701E9B, 0x1A00030001EDC, 0x1A00030101EDA, 0x1A00030301EE0, 0x1A00030901EDE, 0x1A00032301EE2,
  0x1A10030001EDD, 0x1A10030101EDB, 0x1A10030301EE1, 0x1A10030901EDF, 0x1A10032301EE3, 0x1AF0030001EEA, 0x1AF0030101EE8, 0x1AF0030301EEE,
  0x1AF0030901EEC, 0x1AF0032301EF0, 0x1B00030001EEB, 0x1B00030101EE9, 0x1B00030301EEF, 0x1B00030901EED, 0x1B00032301EF1, 0x1B70030C001EE,
  0x1EA00304001EC, 0x1EB00304001ED, 0x22600304001E0, 0x22700304001E1, 0x2280030601E1C, 0x2290030601E1D, 0x22E0030400230, 0x22F0030400231,
  0x2920030C001EF, 0x3080030100344, 0x3910030001FBA, 0x3910030100386, 0x3910030401FB9, 0x3910030601FB8, 0x3910031301F08, 0x3910031401F09,
  0x3910034501FBC, 0x3950030001FC8, 0x3950030100388, 0x3950031301F18, 0x3950031401F19, 0x3970030001FCA, 0x3970030100389, 0x3970031301F28,
  0x3970031401F29, 0x3970034501FCC, 0x3990030001FDA, 0x399003010038A, 0x3990030401FD9, 0x3990030601FD8, 0x39900308003AA, 0x3990031301F38,
  0x3990031401F39, 0x39F0030001FF8, 0x39F003010038C, 0x39F0031301F48, 0x39F0031401F49, 0x3A10031401FEC, 0x3A50030001FEA, 0x3A5003010038E,
  0x3A50030401FE9, 0x3A50030601FE8, 0x3A500308003AB, 0x3A50031401F59, 0x3A90030001FFA, 0x3A9003010038F, 0x3A90031301F68, 0x3A90031401F69,
  0x3A90034501FFC, 0x3AC0034501FB4, 0x3AE0034501FC4, 0x3B10030001F70, 0x3B100301003AC, 0x3B10030401FB1, 0x3B10030601FB0, 0x3B10031301F00,
  0x3B10031401F01, 0x3B10034201FB6, 0x3B10034501FB3, 0x3B50030001F72, 0x3B500301003AD, 0x3B50031301F10, 0x3B50031401F11, 0x3B70030001F74,
  0x3B700301003AE, 0x3B70031301F20, 0x3B70031401F21, 0x3B70034201FC6, 0x3B70034501FC3, 0x3B90030001F76, 0x3B900301003AF, 0x3B90030401FD1,
  0x3B90030601FD0, 0x3B900308003CA, 0x3B90031301F30, 0x3B90031401F31, 0x3B90034201FD6, 0x3BF0030001F78, 0x3BF00301003CC, 0x3BF0031301F40,
  0x3BF0031401F41, 0x3C10031301FE4, 0x3C10031401FE5, 0x3C50030001F7A, 0x3C500301003CD, 0x3C50030401FE1, 0x3C50030601FE0, 0x3C500308003CB,
  0x3C50031301F50, 0x3C50031401F51, 0x3C50034201FE6, 0x3C90030001F7C, 0x3C900301003CE, 0x3C90031301F60, 0x3C90031401F61, 0x3C90034201FF6,
  0x3C90034501FF3, 0x3CA0030001FD2, 0x3CA0030100390, 0x3CA0034201FD7, 0x3CB0030001FE2, 0x3CB00301003B0, 0x3CB0034201FE7, 0x3CE0034501FF4,
  0x3D200301003D3, 0x3D200308003D4, 0x4060030800407, 0x41000306004D0, 0x41000308004D2, 0x4130030100403, 0x4150030000400, 0x41500306004D6,
  0x4150030800401, 0x41600306004C1, 0x41600308004DC, 0x41700308004DE, 0x418003000040D, 0x41800304004E2, 0x4180030600419, 0x41800308004E4]

/-- src/Ystring/NormalizationTables.hpp:365-716 (part 3) -/
def TO_COMPOSED_3 : List Nat := [
  0x41A003010040C, 0x41E00308004E6, 0x42300304004EE, 0x423003060040E, 0x42300308004F0, 0x4230030B004F2, 0x42700308004F4, 0x42B00308004F8,
  0x42D00308004EC, 0x43000306004D1, 0x43000308004D3, 0x4330030100453, 0x4350030000450, 0x43500306004D7, 0x4350030800451, 0x43600306004C2,
  0x43600308004DD, 0x43700308004DF, 0x438003000045D, 0x43800304004E3, 0x4380030600439, 0x43800308004E5, 0x43A003010045C, 0x43E00308004E7,
  0x44300304004EF, 0x443003060045E, 0x44300308004F1, 0x4430030B004F3, 0x44700308004F5, 0x44B00308004F9, 0x44D00308004ED, 0x4560030800457,
  0x4740030F00476, 0x4750030F00477, 0x4D800308004DA, 0x4D900308004DB, 0x4E800308004EA, 0x4E900308004EB, 0x5D0005B70FB2E, 0x5D0005B80FB2F,
  0x5D0005BC0FB30, 0x5D1005BC0FB31, 0x5D1005BF0FB4C, 0x5D2005BC0FB32, 0x5D3005BC0FB33, 0x5D4005BC0FB34, 0x5D5005B90FB4B, 0x5D5005BC0FB35,
  0x5D6005BC0FB36, 0x5D8005BC0FB38, 0x5D9005B40FB1D, 0x5D9005BC0FB39, 0x5DA005BC0FB3A, 0x5DB005BC0FB3B, 0x5DB005BF0FB4D, 0x5DC005BC0FB3C,
  0x5DE005BC0FB3E, 0x5E0005BC0FB40, 0x5E1005BC0FB41, 0x5E3005BC0FB43, 0x5E4005BC0FB44, 0x5E4005BF0FB4E, 0x5E6005BC0FB46, 0x5E7005BC0FB47,
  0x5E8005BC0FB48, 0x5E9005BC0FB49, 0x5E9005C10FB2A, 0x5E9005C20FB2B, 0x5EA005BC0FB4A, 0x5F2005B70FB1F, 0x6270065300622, 0x6270065400623,
  0x6270065500625, 0x6480065400624, 0x64A0065400626, 0x6C100654006C2, 0x6D200654006D3, 0x6D500654006C0, 0x9150093C00958, 0x9160093C00959,
  0x9170093C0095A, 0x91C0093C0095B, 0x9210093C0095C, 0x9220093C0095D, 0x9280093C00929, 0x92B0093C0095E, 0x92F0093C0095F, 0x9300093C00931,
  0x9330093C00934, 0x9A1009BC009DC, 0x9A2009BC009DD, 0x9AF009BC009DF, 0x9C7009BE009CB, 0x9C7009D7009CC, 0xA1600A3C00A59, 0xA1700A3C00A5A,
  0xA1C00A3C00A5B, 0xA2B00A3C00A5E, 0xA3200A3C00A33, 0xA3800A3C00A36, 0xB2100B3C00B5C, 0xB2200B3C00B5D, 0xB4700B3E00B4B, 0xB4700B5600B48,
  0xB4700B5700B4C, 0xB9200BD700B94, 0xBC600BBE00BCA, 0xBC600BD700BCC, 0xBC700BBE00BCB, 0xC4600C5600C48, 0xCBF00CD500CC0, 0xCC600CC200CCA,
  0xCC600CD500CC7, 0xCC600CD600CC8, 0xCCA00CD500CCB, 0xD4600D3E00D4A, 0xD4600D5700D4C, 0xD4700D3E00D4B, 0xDD900DCA00DDA, 0xDD900DCF00DDC,
  0xDD900DDF00DDE, 0xDDC00DCA00DDD, 0xF4000FB500F69, 0xF4200FB700F43, 0xF4C00FB700F4D, 0xF5100FB700F52, 0xF5600FB700F57, 0xF5B00FB700F5C,
  0xF7100F7200F73, 0xF7100F7400F75, 0xF7100F8000F81, 0xF9000FB500FB9, 0xF9200FB700F93, 0xF9C00FB700F9D, 0xFA100FB700FA2, 0xFA600FB700FA7,
  0xFAB00FB700FAC, 0xFB200F8000F76, 0xFB300F8000F78, 0x10250102E01026, 0x1B0501B3501B06, 0x1B0701B3501B08, 0x1B0901B3501B0A, 0x1B0B01B3501B0C,
  0x1B0D01B3501B0E, 0x1B1101B3501B12, 0x1B3A01B3501B3B, 0x1B3C01B3501B3D, 0x1B3E01B3501B40, 0x1B3F01B3501B41, 0x1B4201B3501B43, 0x1E360030401E38,
  0x1E370030401E39, 0x1E5A0030401E5C, 0x1E5B0030401E5D, 0x1E620030701E68, 0x1E630030701E69, 0x1EA00030201EAC, 0x1EA00030601EB6, 0x1EA10030201EAD,
  0x1EA10030601EB7, 0x1EB80030201EC6, 0x1EB90030201EC7, 0x1ECC0030201ED8, 0x1ECD0030201ED9, 0x1F000030001F02, 0x1F000030101F04, 0x1F000034201F06,
  0x1F000034501F80, 0x1F010030001F03, 0x1F010030101F05, 0x1F010034201F07, 0x1F010034501F81, 0x1F020034501F82, 0x1F030034501F83, 0x1F040034501F84,
  0x1F050034501F85, 0x1F060034501F86, 0x1F070034501F87, 0x1F080030001F0A, 0x1F080030101F0C, 0x1F080034201F0E, 0x1F080034501F88, 0x1F090030001F0B,
  0x1F090030101F0D, 0x1F090034201F0F, 0x1F090034501F89, 0x1F0A0034501F8A, 0x1F0B0034501F8B, 0x1F0C0034501F8C, 0x1F0D0034501F8D, 0x1F0E0034501F8E,
  0x1F0F0034501F8F, 0x1F100030001F12, 0x1F100030101F14, 0x1F110030001F13, 0x1F110030101F15, 0x1F180030001F1A, 0x1F180030101F1C, 0x1F190030001F1B]

/-- src/Ystring/NormalizationTables.hpp:365-716 (part 4) -/
def TO_COMPOSED_4 : List Nat := [
  0x1F190030101F1D, 0x1F200030001F22, 0x1F200030101F24, 0x1F200034201F26, 0x1F200034501F90, 0x1F210030001F23, 0x1F210030101F25, 0x1F210034201F27,
  0x1F210034501F91, 0x1F220034501F92, 0x1F230034501F93, 0x1F240034501F94, 0x1F250034501F95, 0x1F260034501F96, 0x1F270034501F97, 0x1F280030001F2A,
  0x1F280030101F2C, 0x1F280034201F2E, 0x1F280034501F98, 0x1F290030001F2B, 0x1F290030101F2D, 0x1F290034201F2F, 0x1F290034501F99, 0x1F2A0034501F9A,
  0x1F2B0034501F9B, 0x1F2C0034501F9C, 0x1F2D0034501F9D, 0x1F2E0034501F9E, 0x1F2F0034501F9F, 0x1F300030001F32, 0x1F300030101F34, 0x1F300034201F36,
  0x1F310030001F33, 0x1F310030101F35, 0x1F310034201F37, 0x1F380030001F3A, 0x1F380030101F3C, 0x1F380034201F3E, 0x1F390030001F3B, 0x1F390030101F3D,
  0x1F390034201F3F, 0x1F400030001F42, 0x1F400030101F44, 0x1F410030001F43, 0x1F410030101F45, 0x1F480030001F4A, 0x1F480030101F4C, 0x1F490030001F4B,
  0x1F490030101F4D, 0x1F500030001F52, 0x1F500030101F54, 0x1F500034201F56, 0x1F510030001F53, 0x1F510030101F55, 0x1F510034201F57, 0x1F590030001F5B,
  0x1F590030101F5D, 0x1F590034201F5F, 0x1F600030001F62, 0x1F600030101F64, 0x1F600034201F66, 0x1F600034501FA0, 0x1F610030001F63, 0x1F610030101F65,
  0x1F610034201F67, 0x1F610034501FA1, 0x1F620034501FA2, 0x1F630034501FA3, 0x1F640034501FA4, 0x1F650034501FA5, 0x1F660034501FA6, 0x1F670034501FA7,
  0x1F680030001F6A, 0x1F680030101F6C, 0x1F680034201F6E, 0x1F680034501FA8, 0x1F690030001F6B, 0x1F690030101F6D, 0x1F690034201F6F, 0x1F690034501FA9,
  0x1F6A0034501FAA, 0x1F6B0034501FAB, 0x1F6C0034501FAC, 0x1F6D0034501FAD, 0x1F6E0034501FAE, 0x1F6F0034501FAF, 0x1F700034501FB2, 0x1F740034501FC2,
  0x1F7C0034501FF2, 0x1FB60034501FB7, 0x1FBF0030001FCD, 0x1FBF0030101FCE, 0x1FBF0034201FCF, 0x1FC60034501FC7, 0x1FF60034501FF7, 0x1FFE0030001FDD,
  0x1FFE0030101FDE, 0x1FFE0034201FDF, 0x2190003380219A, 0x2192003380219B, 0x219400338021AE, 0x21D000338021CD, 0x21D200338021CF, 0x21D400338021CE,
  0x22030033802204, 0x22080033802209, 0x220B003380220C, 0x22230033802224, 0x22250033802226, 0x223C0033802241, 0x22430033802244, 0x22450033802247,
  0x22480033802249, 0x224D003380226D, 0x22610033802262, 0x22640033802270, 0x22650033802271, 0x22720033802274, 0x22730033802275, 0x22760033802278,
  0x22770033802279, 0x227A0033802280, 0x227B0033802281, 0x227C00338022E0, 0x227D00338022E1, 0x22820033802284, 0x22830033802285, 0x22860033802288,
  0x22870033802289, 0x229100338022E2, 0x229200338022E3, 0x22A200338022AC, 0x22A800338022AD, 0x22A900338022AE, 0x22AB00338022AF, 0x22B200338022EA,
  0x22B300338022EB, 0x22B400338022EC, 0x22B500338022ED, 0x2ADD0033802ADC, 0x30460309903094, 0x304B030990304C, 0x304D030990304E, 0x304F0309903050,
  0x30510309903052, 0x30530309903054, 0x30550309903056, 0x30570309903058, 0x3059030990305A, 0x305B030990305C, 0x305D030990305E, 0x305F0309903060,
  0x30610309903062, 0x30640309903065, 0x30660309903067, 0x30680309903069, 0x306F0309903070, 0x306F0309A03071, 0x30720309903073, 0x30720309A03074,
  0x30750309903076, 0x30750309A03077, 0x30780309903079, 0x30780309A0307A, 0x307B030990307C, 0x307B0309A0307D, 0x309D030990309E, 0x30A603099030F4,
  0x30AB03099030AC, 0x30AD03099030AE, 0x30AF03099030B0, 0x30B103099030B2, 0x30B303099030B4, 0x30B503099030B6, 0x30B703099030B8, 0x30B903099030BA,
  0x30BB03099030BC, 0x30BD03099030BE, 0x30BF03099030C0, 0x30C103099030C2, 0x30C403099030C5, 0x30C603099030C7, 0x30C803099030C9, 0x30CF03099030D0,
  0x30CF0309A030D1, 0x30D203099030D3, 0x30D20309A030D4, 0x30D503099030D6, 0x30D50309A030D7, 0x30D803099030D9, 0x30D80309A030DA, 0x30DB03099030DC,
  0x30DB0309A030DD, 0x30EF03099030F7, 0x30F003099030F8, 0x30F103099030F9, 0x30F203099030FA, 0x30FD03099030FE, 0xFB49005C10FB2C, 0xFB49005C20FB2D]

/-- src/Ystring/NormalizationTables.hpp:365-716 (part 5) -/
def TO_COMPOSED_5 : List Nat := [
  0x105D200307105C9, 0x105DA00307105E4, 0x11099110BA1109A, 0x1109B110BA1109C, 0x110A5110BA110AB, 0x11131111271112E, 0x11132111271112F, 0x113471133E1134B,
  0x11347113571134C, 0x11382113C911383, 0x11384113BB11385, 0x1138B113C21138E, 0x11390113C911391, 0x113C2113B8113C7, 0x113C2113C2113C5, 0x113C2113C9113C8,
  0x114B9114B0114BC, 0x114B9114BA114BB, 0x114B9114BD114BE, 0x115B8115AF115BA, 0x115B9115AF115BB, 0x119351193011938, 0x1611E1611E16121, 0x1611E1611F16123,
  0x1611E1612016125, 0x1611E1612916122, 0x161211611F16126, 0x161211612016128, 0x161221611F16127, 0x161291611F16124, 0x16D6316D6716D69, 0x16D6716D6716D68,
  0x16D6916D6716D6A, 0x1D1571D1651D15E, 0x1D1581D1651D15F, 0x1D15F1D16E1D160, 0x1D15F1D16F1D161, 0x1D15F1D1701D162, 0x1D15F1D1711D163, 0x1D15F1D1721D164,
  0x1D1B91D1651D1BB, 0x1D1BA1D1651D1BC, 0x1D1BB1D16E1D1BD, 0x1D1BB1D16F1D1BF, 0x1D1BC1D16E1D1BE, 0x1D1BC1D16F1D1C0]

/-- src/Ystring/NormalizationTables.hpp:365-716 (1046 entries) -/
def TO_COMPOSED : List Nat :=
  TO_COMPOSED_0 ++ (TO_COMPOSED_1 ++ (TO_COMPOSED_2 ++ (TO_COMPOSED_3 ++ (TO_COMPOSED_4 ++ (TO_COMPOSED_5)))))

end Ystring
