import Verif.Wemf
import Verif.Formats.Reading
import Verif.Formats.Props
import Verif.HexDump.Props

/-!
# What is shown of Windows (Enhanced) Metafiles in debug mode (C172)
-/

namespace Dtf.Wemf
open Py Text DataFormat

abbrev Str := List Char

/-! ## Model -/

/-- `emf_record_type` (emf.yaml 24-265). -/
def emfTypes : List (Nat × String) := [
  (0x00000001, "EMR_HEADER"), (0x00000002, "EMR_POLYBEZIER"), (0x00000003, "EMR_POLYGON"),
  (0x00000004, "EMR_POLYLINE"), (0x00000005, "EMR_POLYBEZIERTO"), (0x00000006, "EMR_POLYLINETO"),
  (0x00000007, "EMR_POLYPOLYLINE"), (0x00000008, "EMR_POLYPOLYGON"), (0x00000009, "EMR_SETWINDOWEXTEX"),
  (0x0000000a, "EMR_SETWINDOWORGEX"), (0x0000000b, "EMR_SETVIEWPORTEXTEX"), (0x0000000c, "EMR_SETVIEWPORTORGEX"),
  (0x0000000d, "EMR_SETBRUSHORGEX"), (0x0000000e, "EMR_EOF"), (0x0000000f, "EMR_SETPIXELV"),
  (0x00000010, "EMR_SETMAPPERFLAGS"), (0x00000011, "EMR_SETMAPMODE"), (0x00000012, "EMR_SETBKMODE"),
  (0x00000013, "EMR_SETPOLYFILLMODE"), (0x00000014, "EMR_SETROP2"), (0x00000015, "EMR_SETSTRETCHBLTMODE"),
  (0x00000016, "EMR_SETTEXTALIGN"), (0x00000017, "EMR_SETCOLORADJUSTMENT"), (0x00000018, "EMR_SETTEXTCOLOR"),
  (0x00000019, "EMR_SETBKCOLOR"), (0x0000001a, "EMR_OFFSETCLIPRGN"), (0x0000001b, "EMR_MOVETOEX"),
  (0x0000001c, "EMR_SETMETARGN"), (0x0000001d, "EMR_EXCLUDECLIPRECT"), (0x0000001e, "EMR_INTERSECTCLIPRECT"),
  (0x0000001f, "EMR_SCALEVIEWPORTEXTEX"), (0x00000020, "EMR_SCALEWINDOWEXTEX"), (0x00000021, "EMR_SAVEDC"),
  (0x00000022, "EMR_RESTOREDC"), (0x00000023, "EMR_SETWORLDTRANSFORM"), (0x00000024, "EMR_MODIFYWORLDTRANSFORM"),
  (0x00000025, "EMR_SELECTOBJECT"), (0x00000026, "EMR_CREATEPEN"), (0x00000027, "EMR_CREATEBRUSHINDIRECT"),
  (0x00000028, "EMR_DELETEOBJECT"), (0x00000029, "EMR_ANGLEARC"), (0x0000002a, "EMR_ELLIPSE"),
  (0x0000002b, "EMR_RECTANGLE"), (0x0000002c, "EMR_ROUNDRECT"), (0x0000002d, "EMR_ARC"), (0x0000002e, "EMR_CHORD"),
  (0x0000002f, "EMR_PIE"), (0x00000030, "EMR_SELECTPALETTE"), (0x00000031, "EMR_CREATEPALETTE"),
  (0x00000032, "EMR_SETPALETTEENTRIES"), (0x00000033, "EMR_RESIZEPALETTE"), (0x00000034, "EMR_REALIZEPALETTE"),
  (0x00000035, "EMR_EXTFLOODFILL"), (0x00000036, "EMR_LINETO"), (0x00000037, "EMR_ARCTO"),
  (0x00000038, "EMR_POLYDRAW"), (0x00000039, "EMR_SETARCDIRECTION"), (0x0000003a, "EMR_SETMITERLIMIT"),
  (0x0000003b, "EMR_BEGINPATH"), (0x0000003c, "EMR_ENDPATH"), (0x0000003d, "EMR_CLOSEFIGURE"),
  (0x0000003e, "EMR_FILLPATH"), (0x0000003f, "EMR_STROKEANDFILLPATH"), (0x00000040, "EMR_STROKEPATH"),
  (0x00000041, "EMR_FLATTENPATH"), (0x00000042, "EMR_WIDENPATH"), (0x00000043, "EMR_SELECTCLIPPATH"),
  (0x00000044, "EMR_ABORTPATH"), (0x00000046, "EMR_COMMENT"), (0x00000047, "EMR_FILLRGN"),
  (0x00000048, "EMR_FRAMERGN"), (0x00000049, "EMR_INVERTRGN"), (0x0000004a, "EMR_PAINTRGN"),
  (0x0000004b, "EMR_EXTSELECTCLIPRGN"), (0x0000004c, "EMR_BITBLT"), (0x0000004d, "EMR_STRETCHBLT"),
  (0x0000004e, "EMR_MASKBLT"), (0x0000004f, "EMR_PLGBLT"), (0x00000050, "EMR_SETDIBITSTODEVICE"),
  (0x00000051, "EMR_STRETCHDIBITS"), (0x00000052, "EMR_EXTCREATEFONTINDIRECTW"), (0x00000053, "EMR_EXTTEXTOUTA"),
  (0x00000054, "EMR_EXTTEXTOUTW"), (0x00000055, "EMR_POLYBEZIER16"), (0x00000056, "EMR_POLYGON16"),
  (0x00000057, "EMR_POLYLINE16"), (0x00000058, "EMR_POLYBEZIERTO16"), (0x00000059, "EMR_POLYLINETO16"),
  (0x0000005a, "EMR_POLYPOLYLINE16"), (0x0000005b, "EMR_POLYPOLYGON16"), (0x0000005c, "EMR_POLYDRAW16"),
  (0x0000005d, "EMR_CREATEMONOBRUSH"), (0x0000005e, "EMR_CREATEDIBPATTERNBRUSHPT"), (0x0000005f, "EMR_EXTCREATEPEN"),
  (0x00000060, "EMR_POLYTEXTOUTA"), (0x00000061, "EMR_POLYTEXTOUTW"), (0x00000062, "EMR_SETICMMODE"),
  (0x00000063, "EMR_CREATECOLORSPACE"), (0x00000064, "EMR_SETCOLORSPACE"), (0x00000065, "EMR_DELETECOLORSPACE"),
  (0x00000066, "EMR_GLSRECORD"), (0x00000067, "EMR_GLSBOUNDEDRECORD"), (0x00000068, "EMR_PIXELFORMAT"),
  (0x00000069, "EMR_DRAWESCAPE"), (0x0000006a, "EMR_EXTESCAPE"), (0x0000006c, "EMR_SMALLTEXTOUT"),
  (0x0000006d, "EMR_FORCEUFIMAPPING"), (0x0000006e, "EMR_NAMEDESCAPE"), (0x0000006f, "EMR_COLORCORRECTPALETTE"),
  (0x00000070, "EMR_SETICMPROFILEA"), (0x00000071, "EMR_SETICMPROFILEW"), (0x00000072, "EMR_ALPHABLEND"),
  (0x00000073, "EMR_SETLAYOUT"), (0x00000074, "EMR_TRANSPARENTBLT"), (0x00000076, "EMR_GRADIENTFILL"),
  (0x00000077, "EMR_SETLINKEDUFIS"), (0x00000078, "EMR_SETTEXTJUSTIFICATION"),
  (0x00000079, "EMR_COLORMATCHTOTARGETW"), (0x0000007a, "EMR_CREATECOLORSPACEW")]

/-- `emf_stock_object` (emf.yaml 267-308). -/
def stockObjects : List (Nat × String) := [
  (0x80000000, "WHITE_BRUSH"), (0x80000001, "LTGRAY_BRUSH"), (0x80000002, "GRAY_BRUSH"),
  (0x80000003, "DKGRAY_BRUSH"), (0x80000004, "BLACK_BRUSH"), (0x80000005, "NULL_BRUSH"), (0x80000006, "WHITE_PEN"),
  (0x80000007, "BLACK_PEN"), (0x80000008, "NULL_PEN"), (0x8000000a, "OEM_FIXED_FONT"),
  (0x8000000b, "ANSI_FIXED_FONT"), (0x8000000c, "ANSI_VAR_FONT"), (0x8000000d, "SYSTEM_FONT"),
  (0x8000000e, "DEVICE_DEFAULT_FONT"), (0x8000000f, "DEFAULT_PALETTE"), (0x80000010, "SYSTEM_FIXED_FONT"),
  (0x80000011, "DEFAULT_GUI_FONT"), (0x80000012, "DC_BRUSH"), (0x80000013, "DC_PEN")]

/-- `wmf_record_type` (wmf.yaml 563-707). -/
def wmfTypes : List (Nat × String) := [
  (0x0000, "META_EOF"), (0x001e, "META_SAVEDC"), (0x0035, "META_REALIZEPALETTE"), (0x0037, "META_SETPALENTRIES"),
  (0x00f7, "META_CREATEPALETTE"), (0x0102, "META_SETBKMODE"), (0x0103, "META_SETMAPMODE"), (0x0104, "META_SETROP2"),
  (0x0105, "META_SETRELABS"), (0x0106, "META_SETPOLYFILLMODE"), (0x0107, "META_SETSTRETCHBLTMODE"),
  (0x0108, "META_SETTEXTCHAREXTRA"), (0x0127, "META_RESTOREDC"), (0x012a, "META_INVERTREGION"),
  (0x012b, "META_PAINTREGION"), (0x012c, "META_SELECTCLIPREGION"), (0x012d, "META_SELECTOBJECT"),
  (0x012e, "META_SETTEXTALIGN"), (0x0139, "META_RESIZEPALETTE"), (0x0142, "META_DIBCREATEPATTERNBRUSH"),
  (0x0149, "META_SETLAYOUT"), (0x01f0, "META_DELETEOBJECT"), (0x01f9, "META_CREATEPATTERNBRUSH"),
  (0x0201, "META_SETBKCOLOR"), (0x0209, "META_SETTEXTCOLOR"), (0x020a, "META_SETTEXTJUSTIFICATION"),
  (0x020b, "META_SETWINDOWORG"), (0x020c, "META_SETWINDOWEXT"), (0x020d, "META_SETVIEWPORTORG"),
  (0x020e, "META_SETVIEWPORTEXT"), (0x020f, "META_OFFSETWINDOWORG"), (0x0211, "META_OFFSETVIEWPORTORG"),
  (0x0213, "META_LINETO"), (0x0214, "META_MOVETO"), (0x0220, "META_OFFSETCLIPRGN"), (0x0228, "META_FILLREGION"),
  (0x0231, "META_SETMAPPERFLAGS"), (0x0234, "META_SELECTPALETTE"), (0x02fa, "META_CREATEPENINDIRECT"),
  (0x02fb, "META_CREATEFONTINDIRECT"), (0x02fc, "META_CREATEBRUSHINDIRECT"), (0x0324, "META_POLYGON"),
  (0x0325, "META_POLYLINE"), (0x0410, "META_SCALEWINDOWEXT"), (0x0412, "META_SCALEVIEWPORTEXT"),
  (0x0415, "META_EXCLUDECLIPRECT"), (0x0416, "META_INTERSECTCLIPRECT"), (0x0418, "META_ELLIPSE"),
  (0x0419, "META_FLOODFILL"), (0x041b, "META_RECTANGLE"), (0x041f, "META_SETPIXEL"), (0x0429, "META_FRAMEREGION"),
  (0x0436, "META_ANIMATEPALETTE"), (0x0521, "META_TEXTOUT"), (0x0538, "META_POLYPOLYGON"),
  (0x0548, "META_EXTFLOODFILL"), (0x061c, "META_ROUNDRECT"), (0x061d, "META_PATBLT"), (0x0626, "META_ESCAPE"),
  (0x06ff, "META_CREATEREGION"), (0x0817, "META_ARC"), (0x081a, "META_PIE"), (0x0830, "META_CHORD"),
  (0x0922, "META_BITBLT"), (0x0940, "META_DIBBITBLT"), (0x0a32, "META_EXTTEXTOUT"), (0x0b23, "META_STRETCHBLT"),
  (0x0b41, "META_DIBSTRETCHBLT"), (0x0d33, "META_SETDIBTODEV"), (0x0f43, "META_STRETCHDIB")]

/-- `wmf_map_mode` (wmf.yaml 24-43). -/
def mapModes : List (Nat × String) := [
  (0x0001, "MM_TEXT"), (0x0002, "MM_LOMETRIC"), (0x0003, "MM_HIMETRIC"), (0x0004, "MM_LOENGLISH"),
  (0x0005, "MM_HIENGLISH"), (0x0006, "MM_TWIPS"), (0x0007, "MM_ISOTROPIC"), (0x0008, "MM_ANISOTROPIC")]

/-- `wmf_stretch_mode` (wmf.yaml 709-721). -/
def stretchModes : List (Nat × String) := [
  (0x0001, "BLACKONWHITE"), (0x0002, "WHITEONBLACK"), (0x0003, "COLORONCOLOR"), (0x0004, "HALFTONE")]

/-- `_WMF_RASTER_OPERATIONS` (wemf.py 328-585). -/
def rasterOperations : List (Nat × String) := [
  (0x00000042, "BLACKNESS"), (0x00010289, "DPSOO"), (0x00020c89, "DPSON"), (0x000300aa, "PSO"),
  (0x00040c88, "SDPON"), (0x000500a9, "DPO"), (0x00060865, "PDSXNO"), (0x000702c5, "PDSAO"), (0x00080f08, "SDPNA"),
  (0x00090245, "PDSXO"), (0x000a0329, "DPN"), (0x000b0b2a, "PSDNAO"), (0x000c0324, "SPN"), (0x000d0b25, "PDSNAO"),
  (0x000e08a5, "PDSONO"), (0x000f0001, "P"), (0x00100c85, "PDSON"), (0x001100a6, "NOTSRCERAS"),
  (0x00120868, "SDPXNO"), (0x001302c8, "SDPAO"), (0x00140869, "DPSXNO"), (0x001502c9, "DPSAO"),
  (0x00165cca, "PSDPSANAX"), (0x00171d54, "SSPXDSXAX"), (0x00180d59, "SPXPDX"), (0x00191cc8, "SDPSANAX"),
  (0x001a06c5, "PDSPAO"), (0x001b0768, "SDPSXAX"), (0x001c06ca, "PSDPAO"), (0x001d0766, "DSPDXAX"),
  (0x001e01a5, "PDSO"), (0x001f0385, "PDSOA"), (0x00200f09, "DPSNA"), (0x00210248, "SDPXO"), (0x00220326, "DSN"),
  (0x00230b24, "SPDNAO"), (0x00240d55, "SPXDSX"), (0x00251cc5, "PDSPANAX"), (0x002606c8, "SDPSAO"),
  (0x00271868, "SDPSXNOX"), (0x00280369, "DPSXA"), (0x002916ca, "PSDPSAOXXN"), (0x002a0cc9, "DPSANA"),
  (0x002b1d58, "SSPXPDXAXN"), (0x002c0784, "SPDSOAX"), (0x002d060a, "PSDNOX"), (0x002e064a, "PSDPXOX"),
  (0x002f0e2a, "PSDNOAN"), (0x0030032a, "PSNA"), (0x00310b28, "SDPNAON"), (0x00320688, "SDPSOOX"),
  (0x00330008, "NOTSRCCOPY"), (0x003406c4, "SPDSAOX"), (0x00351864, "SPDSXNOX"), (0x003601a8, "SDPOX"),
  (0x00370388, "SDPOAN"), (0x0038078a, "PSDPOAX"), (0x00390604, "SPDNOX"), (0x003a0644, "SPDSXOX"),
  (0x003b0e24, "SPDNOAN"), (0x003c004a, "PSX"), (0x003d18a4, "SPDSONOX"), (0x003e1b24, "SPDSNAOX"),
  (0x003f00ea, "PSAN"), (0x00400f0a, "PSDNAA"), (0x00410249, "DPSXON"), (0x00420d5d, "SDXPDXA"),
  (0x00431cc4, "SPDSANAXN"), (0x00440328, "SRCERASE"), (0x00450b29, "DPSNAON"), (0x004606c6, "DSPDAOX"),
  (0x0047076a, "PSDPXAXN"), (0x00480368, "SDPXA"), (0x004916c5, "PDSPDAOXXN"), (0x004a0789, "DPSDOAX"),
  (0x004b0605, "PDSNOX"), (0x004c0cc8, "SDPANA"), (0x004d1954, "SSPXDSXOXN"), (0x004e0645, "PDSPXOX"),
  (0x004f0e25, "PDSNOAN"), (0x00500325, "PDNA"), (0x00510b26, "DSPNAON"), (0x005206c9, "DPSDAOX"),
  (0x00530764, "SPDSXAXN"), (0x005408a9, "DPSONON"), (0x00550009, "DSTINVERT"), (0x005601a9, "DPSOX"),
  (0x00570389, "DPSOAN"), (0x00580785, "PDSPOAX"), (0x00590609, "DPSNOX"), (0x005a0049, "PATINVERT"),
  (0x005b18a9, "DPSDONOX"), (0x005c0649, "DPSDXOX"), (0x005d0e29, "DPSNOAN"), (0x005e1b29, "DPSDNAOX"),
  (0x005f00e9, "DPAN"), (0x00600365, "PDSXA"), (0x006116c6, "DSPDSAOXXN"), (0x00620786, "DSPDOAX"),
  (0x00630608, "SDPNOX"), (0x00640788, "SDPSOAX"), (0x00650606, "DSPNOX"), (0x00660046, "SRCINVERT"),
  (0x006718a8, "SDPSONOX"), (0x006858a6, "DSPDSONOXXN"), (0x00690145, "PDSXXN"), (0x006a01e9, "DPSAX"),
  (0x006b178a, "PSDPSOAXXN"), (0x006c01e8, "SDPAX"), (0x006d1785, "PDSPDOAXXN"), (0x006e1e28, "SDPSNOAX"),
  (0x006f0c65, "PDXNAN"), (0x00700cc5, "PDSANA"), (0x00711d5c, "SSDXPDXAXN"), (0x00720648, "SDPSXOX"),
  (0x00730e28, "SDPNOAN"), (0x00740646, "DSPDXOX"), (0x00750e26, "DSPNOAN"), (0x00761b28, "SDPSNAOX"),
  (0x007700e6, "DSAN"), (0x007801e5, "PDSAX"), (0x00791786, "DSPDSOAXXN"), (0x007a1e29, "DPSDNOAX"),
  (0x007b0c68, "SDPXNAN"), (0x007c1e24, "SPDSNOAX"), (0x007d0c69, "DPSXNAN"), (0x007e0955, "SPXDSXO"),
  (0x007f03c9, "DPSAAN"), (0x008003e9, "DPSAA"), (0x00810975, "SPXDSXON"), (0x00820c49, "DPSXNA"),
  (0x00831e04, "SPDSNOAXN"), (0x00840c48, "SDPXNA"), (0x00851e05, "PDSPNOAXN"), (0x008617a6, "DSPDSOAXX"),
  (0x008701c5, "PDSAXN"), (0x008800c6, "SRCAND"), (0x00891b08, "SDPSNAOXN"), (0x008a0e06, "DSPNOA"),
  (0x008b0666, "DSPDXOXN"), (0x008c0e08, "SDPNOA"), (0x008d0668, "SDPSXOXN"), (0x008e1d7c, "SSDXPDXAX"),
  (0x008f0ce5, "PDSANAN"), (0x00900c45, "PDSXNA"), (0x00911e08, "SDPSNOAXN"), (0x009217a9, "DPSDPOAXX"),
  (0x009301c4, "SPDAXN"), (0x009417aa, "PSDPSOAXX"), (0x009501c9, "DPSAXN"), (0x00960169, "DPSXX"),
  (0x0097588a, "PSDPSONOXX"), (0x00981888, "SDPSONOXN"), (0x00990066, "DSXN"), (0x009a0709, "DPSNAX"),
  (0x009b07a8, "SDPSOAXN"), (0x009c0704, "SPDNAX"), (0x009d07a6, "DSPDOAXN"), (0x009e16e6, "DSPDSAOXX"),
  (0x009f0345, "PDSXAN"), (0x00a000c9, "DPA"), (0x00a11b05, "PDSPNAOXN"), (0x00a20e09, "DPSNOA"),
  (0x00a30669, "DPSDXOXN"), (0x00a41885, "PDSPONOXN"), (0x00a50065, "PDXN"), (0x00a60706, "DSPNAX"),
  (0x00a707a5, "PDSPOAXN"), (0x00a803a9, "DPSOA"), (0x00a90189, "DPSOXN"), (0x00aa0029, "D"), (0x00ab0889, "DPSONO"),
  (0x00ac0744, "SPDSXAX"), (0x00ad06e9, "DPSDAOXN"), (0x00ae0b06, "DSPNAO"), (0x00af0229, "DPNO"),
  (0x00b00e05, "PDSNOA"), (0x00b10665, "PDSPXOXN"), (0x00b21974, "SSPXDSXOX"), (0x00b30ce8, "SDPANAN"),
  (0x00b4070a, "PSDNAX"), (0x00b507a9, "DPSDOAXN"), (0x00b616e9, "DPSDPAOXX"), (0x00b70348, "SDPXAN"),
  (0x00b8074a, "PSDPXAX"), (0x00b906e6, "DSPDAOXN"), (0x00ba0b09, "DPSNAO"), (0x00bb0226, "MERGEPAINT"),
  (0x00bc1ce4, "SPDSANAX"), (0x00bd0d7d, "SDXPDXAN"), (0x00be0269, "DPSXO"), (0x00bf08c9, "DPSANO"),
  (0x00c000ca, "MERGECOPY"), (0x00c11b04, "SPDSNAOXN"), (0x00c21884, "SPDSONOXN"), (0x00c3006a, "PSXN"),
  (0x00c40e04, "SPDNOA"), (0x00c50664, "SPDSXOXN"), (0x00c60708, "SDPNAX"), (0x00c707aa, "PSDPOAXN"),
  (0x00c803a8, "SDPOA"), (0x00c90184, "SPDOXN"), (0x00ca0749, "DPSDXAX"), (0x00cb06e4, "SPDSAOXN"),
  (0x00cc0020, "SRCCOPY"), (0x00cd0888, "SDPONO"), (0x00ce0b08, "SDPNAO"), (0x00cf0224, "SPNO"),
  (0x00d00e0a, "PSDNOA"), (0x00d1066a, "PSDPXOXN"), (0x00d20705, "PDSNAX"), (0x00d307a4, "SPDSOAXN"),
  (0x00d41d78, "SSPXPDXAX"), (0x00d50ce9, "DPSANAN"), (0x00d616ea, "PSDPSAOXX"), (0x00d70349, "DPSXAN"),
  (0x00d80745, "PDSPXAX"), (0x00d906e8, "SDPSAOXN"), (0x00da1ce9, "DPSDANAX"), (0x00db0d75, "SPXDSXAN"),
  (0x00dc0b04, "SPDNAO"), (0x00dd0228, "SDNO"), (0x00de0268, "SDPXO"), (0x00df08c8, "SDPANO"), (0x00e003a5, "PDSOA"),
  (0x00e10185, "PDSOXN"), (0x00e20746, "DSPDXAX"), (0x00e306ea, "PSDPAOXN"), (0x00e40748, "SDPSXAX"),
  (0x00e506e5, "PDSPAOXN"), (0x00e61ce8, "SDPSANAX"), (0x00e70d79, "SPXPDXAN"), (0x00e81d74, "SSPXDSXAX"),
  (0x00e95ce6, "DSPDSANAXXN"), (0x00ea02e9, "DPSAO"), (0x00eb0849, "DPSXNO"), (0x00ec02e8, "SDPAO"),
  (0x00ed0848, "SDPXNO"), (0x00ee0086, "SRCPAINT"), (0x00ef0a08, "SDPNOO"), (0x00f00021, "PATCOPY"),
  (0x00f10885, "PDSONO"), (0x00f20b05, "PDSNAO"), (0x00f3022a, "PSNO"), (0x00f40b0a, "PSDNAO"), (0x00f50225, "PDNO"),
  (0x00f60265, "PDSXO"), (0x00f708c5, "PDSANO"), (0x00f802e5, "PDSAO"), (0x00f90845, "PDSXNO"), (0x00fa0089, "DPO"),
  (0x00fb0a09, "PATPAINT"), (0x00fc008a, "PSO"), (0x00fd0a0a, "PSDNOO"), (0x00fe02a9, "DPSOO"),
  (0x00ff0062, "WHITENESS")]

/-- `_DebugPrintValue` (data_format.py 149-158). -/
def value (name : String) (text : Str) : Str := Formats.formatValue name.toList text

/-- `f"0x{n:04x}"` and alike. -/
def hex (w n : Nat) : Str := ['0', 'x'] ++ Formats.hexw w n

/-- `GetName(number) or "UNKNOWN"`, and `get(number, "UNKNOWN")`. -/
def nameOf (table : List (Nat × String)) (n : Nat) : Str :=
  match table.lookup n with
  | some s => s.toList
  | none => "UNKNOWN".toList

/-- `f"0x{n:04x} ({name})"`. -/
def named (table : List (Nat × String)) (w n : Nat) : Str := hex w n ++ [' ', '('] ++ nameOf table n ++ [')']

/-- A number of the bytes from `start` to `stop`. -/
def num (b : Bytes) (start stop : Nat) : Nat := leNat (slice b start stop)

/-- `_DebugPrintFileHeader` of an Enhanced Metafile (wemf.py 56-92). -/
def emfFileHeader (b : Bytes) : Str :=
  value "Record type" (named emfTypes 4 (num b 0 4)) ++ value "Record size" (digits 10 (num b 4 8)) ++
  value "Signature" (hex 4 (num b 40 44)) ++ value "Format version" (hex 4 (num b 44 48)) ++
  value "File size" (digits 10 (num b 48 52)) ++ value "Number of records" (digits 10 (num b 52 56)) ++
  value "Number of handles" (digits 10 (num b 56 58)) ++ value "Unknown (reserved)" (hex 4 (num b 58 60)) ++
  value "Description string size" (digits 10 (num b 60 64)) ++ value "Description string offset" (hex 4 (num b 64 68)) ++ ['\n']

/-- `_DebugPrintRecordHeader` of an Enhanced Metafile (wemf.py 94-112), of the type and the size. -/
def emfRecordHeader (type size : Nat) : Str :=
  value "Record type" (named emfTypes 4 type) ++ value "Record size" (digits 10 size) ++ ['\n']

/-- The values of the data of a record of an Enhanced Metafile (wemf.py 186-214): `none` if the type has no structure. -/
def emfValues (type : Nat) (b : Bytes) : Option (Res Str) :=
  if type = 0x18 then
    some (if b.length < 4 then .error .parseError else .ok (value "Color" (hex 4 (num b 0 4)) ++ ['\n']))
  else if type = 0x25 then
    some (if b.length < 4 then .error .parseError else
      .ok (value "Object identifier" (match stockObjects.lookup (num b 0 4) with
        | some s => hex 8 (num b 0 4) ++ [' ', '('] ++ s.toList ++ [')']
        | none => hex 8 (num b 0 4)) ++ ['\n']))
  else none

/-- `_DebugPrintPlaceable` (wemf.py 604-619). -/
def placeableText (b : Bytes) : Str :=
  value "Signature" (hex 8 (num b 0 4)) ++ value "Resource handle" (hex 4 (num b 4 6)) ++
  Formats.dataText "Bounding box".toList (slice b 6 14) ++ value "Number of units per inch" (digits 10 (num b 14 16)) ++
  value "Unknown1" (hex 8 (num b 16 20)) ++ value "Checksum" (hex 4 (num b 20 22)) ++ ['\n']

/-- `_DebugPrintHeader` of a Windows Metafile (wemf.py 585-602). -/
def wmfHeaderText (b : Bytes) : Str :=
  value "File type" (hex 4 (num b 0 2)) ++ value "Record size" (digits 10 (num b 2 4)) ++
  value "Format version" (digits 10 (num b 4 6)) ++ value "File size lower" (digits 10 (num b 6 8)) ++
  value "File size upper" (digits 10 (num b 8 10)) ++ value "Maximum number of object" (digits 10 (num b 10 12)) ++
  value "Largest record size" (digits 10 (num b 12 16)) ++ value "Number of records" (digits 10 (num b 16 18)) ++ ['\n']

/-- `_DebugPrintRecordHeader` of a Windows Metafile (wemf.py 621-643), of the type and the size in bytes. -/
def wmfRecordHeader (type size : Nat) : Str :=
  value "Record size" (digits 10 (size / 2) ++ [' ', '('] ++ digits 10 size ++ " bytes)".toList) ++
  value "Record type" (named wmfTypes 4 type) ++ ['\n']

/-- The values of the data of a record of a Windows Metafile (wemf.py 739-815): `none` if the type has no structure. -/
def wmfValues (type : Nat) (b : Bytes) : Option (Res Str) :=
  if type = 0x0103 then
    some (if b.length < 2 then .error .parseError else .ok (value "Map mode" (named mapModes 4 (num b 0 2)) ++ ['\n']))
  else if type = 0x0107 then
    some (if b.length < 2 then .error .parseError else .ok (value "Stretch mode" (named mapModes 4 (num b 0 2)) ++ ['\n']))
  else if type = 0x0127 then
    some (if b.length < 2 then .error .parseError else
      .ok (value "Number of saved device context" (digits 10 (num b 0 2)) ++ ['\n']))
  else if type = 0x020b ∨ type = 0x020c then
    some (if b.length < 4 then .error .parseError else
      .ok (value "X coordinate" (digits 10 (num b 0 2)) ++ value "Y coordinate" (digits 10 (num b 2 4)) ++ ['\n']))
  else if type = 0x0b41 then
    some (if b.length < 20 then .error .parseError else
      .ok (value "Raster operation" (named rasterOperations 8 (num b 0 4)) ++
        value "Source height" (digits 10 (num b 4 6)) ++ value "Source width" (digits 10 (num b 6 8)) ++
        value "Source X coordinate" (digits 10 (num b 8 10)) ++ value "Source Y coordinate" (digits 10 (num b 10 12)) ++
        value "Destination height" (digits 10 (num b 12 14)) ++ value "Destination width" (digits 10 (num b 14 16)) ++
        value "Destination X coordinate" (digits 10 (num b 16 18)) ++
        value "Destination Y coordinate" (digits 10 (num b 18 20)) ++ ['\n']))
  else none

/-- `file_object.read(size)`. -/
def readSize (b : Bytes) (size : Int) : Bytes := if size < 0 then b else b.take size.toNat

/-- `_ReadRecord` with `_ReadRecordData` in debug mode (wemf.py 138-216, 691-815): the text, and the offset of the next
record or an error. -/
def debugRecord (m : DataTypeMap (Nat × Nat)) (header : Nat → Nat → Str) (values : Nat → Bytes → Option (Res Str))
    (data : Bytes) (off : Nat) : Str × Res Nat :=
  match structAt m data off with
  | .error e => (Formats.readingText "record header".toList off, .error e)
  | .ok ((type, size), n) =>
    let dataSize : Int := size - (n - off)
    let b := readSize (data.drop (off + n.toNat)) dataSize
    let text := Formats.readingText "record header".toList off ++
      Formats.structureText "record header".toList ((data.drop off).take n.toNat) ++ header type size ++
      (if 0 < dataSize then Formats.dataText "Record data".toList b else [])
    match values type b with
    | none => (text, .ok (off + size))
    | some (.error e) => (text, .error e)
    | some (.ok t) => (text ++ t, .ok (off + size))

/-- The records up to the end of the file (wemf.py 226-230, 839-843); `none` is out of fuel. -/
def debugRecords (step : Nat → Str × Res Nat) (stop : Nat) : Nat → Nat → Option (Str × Option Err)
  | 0, _ => none
  | fuel + 1, off =>
    if off < stop then
      match step off with
      | (t, .error e) => some (t, some e)
      | (t, .ok next) => (debugRecords step stop fuel next).map (fun r => (t ++ r.1, r.2))
    else some ([], none)

/-- `ReadFileObject` of an Enhanced Metafile in debug mode (wemf.py 114-136, 218-230). -/
def debugEmf (data : Bytes) (fuel : Nat) : Option (Str × Option Err) :=
  match structAt (fixedMap 108 id) data 0 with
  | .error e => some (Formats.readingText "file header".toList 0, some e)
  | .ok (b, _) =>
    (debugRecords (debugRecord emfHeader emfRecordHeader emfValues data) data.length fuel 108).map (fun r =>
      (Formats.readingText "file header".toList 0 ++ Formats.structureText "file header".toList b ++ emfFileHeader b ++ r.1, r.2))

/-- The placeable in debug mode (wemf.py 671-689, 826-835): the text, and the offset of the header or an error. -/
def debugPlaceable (data : Bytes) : Str × Res Nat :=
  if data.length < 4 then ([], .error .parseError)
  else if slice data 0 4 = placeableSignature then
    match structAt (fixedMap 22 id) data 0 with
    | .error e => (Formats.readingText "placeable".toList 0, .error e)
    | .ok (b, _) =>
      (Formats.readingText "placeable".toList 0 ++ Formats.structureText "placeable".toList b ++ placeableText b, .ok 22)
  else ([], .ok 0)

/-- `ReadFileObject` of a Windows Metafile in debug mode (wemf.py 645-669, 817-843): the header is shown before it is
checked. -/
def debugWmf (data : Bytes) (fuel : Nat) : Option (Str × Option Err) :=
  match debugPlaceable data with
  | (t, .error e) => some (t, some e)
  | (t, .ok off) =>
    match structAt (fixedMap 18 id) data off with
    | .error e => some (t ++ Formats.readingText "header".toList off, some e)
    | .ok (b, _) =>
      let text := t ++ Formats.readingText "header".toList off ++ Formats.structureText "header".toList b ++ wmfHeaderText b
      if (num b 0 2 = 1 ∨ num b 0 2 = 2) ∧ num b 2 4 = 9 then
        (debugRecords (debugRecord wmfHeader wmfRecordHeader wmfValues data) data.length fuel (off + 18)).map (fun r =>
          (text ++ r.1, r.2))
      else some (text, some .parseError)

/-- `Main` of the script (scripts/wemf.py 16-85) for a file that can be opened: the signature at offset 40 tells the
format. -/
def script (debug : Bool) (data : Bytes) (fuel : Nat) : Option (Str × Option Err) :=
  let emf : Bool := slice data 40 44 == [0x20, 0x45, 0x4d, 0x46]
  let information : Str := (if emf then "Windows Enhanced Metafile" else "Windows Metafile").toList ++ " information:".toList
  let read := if debug then (if emf then debugEmf data fuel else debugWmf data fuel)
    else (if emf then readEmf data fuel else readWmf data fuel).map (fun r => ([], match r with | .error e => some e | .ok _ => none))
  read.map (fun r => match r.2 with | some e => (r.1, some e) | none => (r.1 ++ information, none))

/-! ## Specification -/

/-- The data that is shown of a record at an offset with what follows it: as many bytes more than its data as there are
before the record. -/
def shownData (off : Nat) (r : Stored) (post : Bytes) : Bytes := (r.body ++ post).take (r.body.length + off)

/-- What is shown of a record. -/
def shownRecord (head : Stored → Bytes) (header : Nat → Nat → Str) (values : Nat → Bytes → Option (Res Str))
    (off : Nat) (r : Stored) (b : Bytes) : Str × Option Err :=
  let text := Formats.readingText "record header".toList off ++ Formats.structureText "record header".toList (head r) ++
    header r.type ((head r).length + r.body.length) ++ Formats.dataText "Record data".toList b
  match values r.type b with
  | none => (text, none)
  | some (.error e) => (text, some e)
  | some (.ok t) => (text ++ t, none)

/-- What is shown of records one after the other, up to one whose values cannot be read. -/
def shownRecords (head : Stored → Bytes) (header : Nat → Nat → Str) (values : Nat → Bytes → Option (Res Str)) :
    Nat → List Stored → Str × Option Err
  | _, [] => ([], none)
  | off, r :: rs =>
    let t := shownRecord head header values off r (shownData off r (rs.flatMap (fun r => head r ++ r.body)))
    match t.2 with
    | some e => (t.1, some e)
    | none =>
      let u := shownRecords head header values (off + ((head r).length + r.body.length)) rs
      (t.1 ++ u.1, u.2)

/-- The header of a stored record. -/
def emfHead (r : Stored) : Bytes := leBytes 4 r.type ++ leBytes 4 (8 + r.body.length)

def wmfHead (r : Stored) : Bytes := leBytes 4 ((6 + r.body.length) / 2) ++ leBytes 2 r.type

/-! ## Proofs -/

theorem emfHead_length (r : Stored) : (emfHead r).length = 8 := by simp [emfHead]

theorem wmfHead_length (r : Stored) : (wmfHead r).length = 6 := by simp [wmfHead]

theorem emfHead_reads (r : Stored) (h : r.EmfOk) : Encodes emfHeader (emfHead r) (r.type, 8 + r.body.length) := by
  obtain ⟨h1, h2⟩ := h
  refine encodes_refine _ _ _ _ _ (encodes_fixed 8 id _ (by omega) (emfHead_length r)) ?_
  have e : emfHead r = [leBytes 4 r.type, leBytes 4 (8 + r.body.length)].flatten := by simp [emfHead]
  have f0 : leNat (slice [leBytes 4 r.type, leBytes 4 (8 + r.body.length)].flatten 0 4) = r.type :=
    leField [] 4 _ _ 0 4 rfl rfl (by omega)
  have f1 : leNat (slice [leBytes 4 r.type, leBytes 4 (8 + r.body.length)].flatten 4 8) = 8 + r.body.length :=
    leField [leBytes 4 _] 4 _ _ 4 8 (by simp) rfl (by omega)
  rw [id, e, f0, f1]

theorem wmfHead_reads (r : Stored) (h : r.WmfOk) : Encodes wmfHeader (wmfHead r) (r.type, 6 + r.body.length) := by
  obtain ⟨h1, h2, h3⟩ := h
  refine encodes_refine _ _ _ _ _ (encodes_fixed 6 id _ (by omega) (wmfHead_length r)) ?_
  have e : wmfHead r = [leBytes 4 ((6 + r.body.length) / 2), leBytes 2 r.type].flatten := by simp [wmfHead]
  have f0 : leNat (slice [leBytes 4 ((6 + r.body.length) / 2), leBytes 2 r.type].flatten 0 4) =
      (6 + r.body.length) / 2 := leField [] 4 _ _ 0 4 rfl rfl (by omega)
  have f1 : leNat (slice [leBytes 4 ((6 + r.body.length) / 2), leBytes 2 r.type].flatten 4 6) = r.type :=
    leField [leBytes 4 _] 2 _ _ 4 6 (by simp) rfl (by omega)
  rw [id, e, f0, f1]
  congr 2
  omega

theorem debugRecord_stored (m : DataTypeMap (Nat × Nat)) (head : Stored → Bytes) (header : Nat → Nat → Str)
    (values : Nat → Bytes → Option (Res Str)) (r : Stored)
    (hm : Encodes m (head r) (r.type, (head r).length + r.body.length)) (pre post : Bytes) (hp : 0 < pre.length) :
    debugRecord m header values (pre ++ (head r ++ r.body) ++ post) pre.length =
      ((shownRecord head header values pre.length r (shownData pre.length r post)).1,
        match (shownRecord head header values pre.length r (shownData pre.length r post)).2 with
        | some e => .error e
        | none => .ok (pre.length + ((head r).length + r.body.length))) := by
  have e : pre ++ (head r ++ r.body) ++ post = pre ++ head r ++ (r.body ++ post) := by simp
  unfold debugRecord
  rw [e, hm]
  dsimp only
  have hd : ((((head r).length + r.body.length : Nat) : Int) - (((head r).length : Int) - (pre.length : Int))) =
      ((r.body.length + pre.length : Nat) : Int) := by omega
  have h1 : (pre ++ head r ++ (r.body ++ post)).drop (pre.length + (head r).length) = r.body ++ post := by
    rw [← List.length_append, List.drop_left]
  have h2 : ((pre ++ head r ++ (r.body ++ post)).drop pre.length).take (head r).length = head r := by
    rw [List.append_assoc, List.drop_left, List.take_left]
  have h3 : readSize (r.body ++ post) ((r.body.length + pre.length : Nat) : Int) = shownData pre.length r post := by
    unfold readSize shownData
    rw [if_neg (by omega), Int.toNat_natCast]
  rw [hd, Int.toNat_natCast, h1, h2, h3, if_pos (by omega)]
  unfold shownRecord
  dsimp only
  cases values r.type (shownData pre.length r post) with
  | none => rfl
  | some v => cases v <;> rfl

theorem debugRecords_stored (m : DataTypeMap (Nat × Nat)) (head : Stored → Bytes) (header : Nat → Nat → Str)
    (values : Nat → Bytes → Option (Res Str)) (records : List Stored) (hh : ∀ r, 0 < (head r).length)
    (hm : ∀ r ∈ records, Encodes m (head r) (r.type, (head r).length + r.body.length)) (data pre : Bytes)
    (hp : 0 < pre.length) (hd : data = pre ++ records.flatMap (fun r => head r ++ r.body)) (fuel : Nat)
    (hf : records.length < fuel) :
    debugRecords (debugRecord m header values data) data.length fuel pre.length =
      some (shownRecords head header values pre.length records) := by
  induction records generalizing pre fuel with
  | nil =>
    obtain ⟨k, rfl⟩ := Nat.exists_eq_add_of_lt hf
    simp [debugRecords, hd, shownRecords]
  | cons r rs ih =>
    obtain ⟨k, rfl⟩ := Nat.exists_eq_add_of_lt hf
    have hr := hh r
    have e : data = pre ++ (head r ++ r.body) ++ rs.flatMap (fun r => head r ++ r.body) := by rw [hd]; simp
    have hl : pre.length < data.length := by rw [e]; simp; omega
    have hs := debugRecord_stored m head header values r (hm r (by simp)) pre (rs.flatMap (fun r => head r ++ r.body)) hp
    rw [← e] at hs
    rw [debugRecords, if_pos hl, hs]
    unfold shownRecords
    generalize shownRecord head header values pre.length r
      (shownData pre.length r (rs.flatMap (fun r => head r ++ r.body))) = t
    obtain ⟨t, o⟩ := t
    cases o with
    | some e => rfl
    | none =>
      have := ih (fun r hr => hm r (by simp [hr])) (pre ++ (head r ++ r.body)) (by simp; omega) e
        ((r :: rs).length + k) (by simp; omega)
      simp only [List.length_append] at this
      dsimp only
      rw [this]
      rfl

theorem emf_flat (records : List Stored) : records.flatMap (·.emf) = records.flatMap (fun r => emfHead r ++ r.body) := by
  congr 1
  funext r
  simp [Stored.emf, emfHead]

theorem wmf_flat (records : List Stored) : records.flatMap (·.wmf) = records.flatMap (fun r => wmfHead r ++ r.body) := by
  congr 1
  funext r
  simp [Stored.wmf, wmfHead]

/-! ## C172 -/

/-- What is shown of an Enhanced Metafile. -/
theorem C172_emf (header : Bytes) (h1 : header.length = 108) (records : List Stored) (h : ∀ r ∈ records, r.EmfOk)
    (fuel : Nat) (hf : records.length < fuel) :
    debugEmf (header ++ records.flatMap (·.emf)) fuel =
      some (Formats.readingText "file header".toList 0 ++ Formats.structureText "file header".toList header ++
        emfFileHeader header ++ (shownRecords emfHead emfRecordHeader emfValues 108 records).1,
        (shownRecords emfHead emfRecordHeader emfValues 108 records).2) := by
  have hs : structAt (fixedMap 108 id) (header ++ records.flatMap (·.emf)) 0 = .ok (header, 108) := by
    have := encodes_fixed 108 id header (by omega) h1 [] (records.flatMap (·.emf))
    simpa [h1] using this
  unfold debugEmf
  rw [hs]
  dsimp only
  have := debugRecords_stored emfHeader emfHead emfRecordHeader emfValues records
    (fun r => by rw [emfHead_length]; omega) (fun r hr => by rw [emfHead_length]; exact emfHead_reads r (h r hr))
    (header ++ records.flatMap (·.emf)) header (by omega) (by rw [emf_flat]) fuel hf
  rw [h1] at this
  rw [this]
  rfl

/-- What is shown of the placeable and the header of a Windows Metafile. -/
def shownHeaders (placeable header : Bytes) : Str :=
  (if placeable = [] then [] else Formats.readingText "placeable".toList 0 ++
    Formats.structureText "placeable".toList placeable ++ placeableText placeable) ++
  Formats.readingText "header".toList placeable.length ++ Formats.structureText "header".toList header ++ wmfHeaderText header

theorem debugPlaceable_stored (placeable header post : Bytes) (hp : Placeable placeable) (hh : WmfHeader header) :
    debugPlaceable (placeable ++ header ++ post) =
      (if placeable = [] then [] else Formats.readingText "placeable".toList 0 ++
        Formats.structureText "placeable".toList placeable ++ placeableText placeable, .ok placeable.length) := by
  obtain ⟨type, rest, rfl, ht, hr⟩ := hh
  generalize hd : [leBytes 2 type, leBytes 2 9, rest].flatten = header
  have hl : header.length = 18 := by rw [← hd]; simp [hr]
  have h0 : leNat (slice header 0 2) = type := by rw [← hd]; exact leField [] 2 _ _ 0 2 rfl rfl (by omega)
  unfold debugPlaceable
  rw [if_neg (by simp; omega)]
  rcases hp with rfl | ⟨prest, rfl, hpr⟩
  · rw [if_neg]
    · rfl
    · intro hc
      have : leNat (slice (header ++ post) 0 2) = type := by
        have e : slice (header ++ post) 0 2 = slice header 0 2 := by
          simp only [slice, List.drop_zero]
          rw [List.take_append_of_le_length (by omega)]
        rw [e, h0]
      have e2 : slice (header ++ post) 0 2 = (slice (header ++ post) 0 4).take 2 := by
        simp [slice, List.take_take]
      rw [List.nil_append] at hc
      rw [e2, hc, placeableKey_eq] at this
      have : leNat (placeableKey.take 2) = 52695 := by decide
      omega
  · rw [if_pos]
    · have := encodes_fixed 22 id (placeableKey ++ prest) (by omega) (by simp [placeableKey, hpr]) [] (header ++ post)
      rw [List.nil_append, List.length_nil, ← List.append_assoc] at this
      erw [this]
      rw [if_neg (by simp [placeableKey, leBytes])]
      simp [placeableKey, hpr]
    · rw [placeableKey_eq]
      simp [slice, placeableKey]

/-- What is shown of a Windows Metafile. -/
theorem C172_wmf (placeable header : Bytes) (hp : Placeable placeable) (hh : WmfHeader header)
    (records : List Stored) (h : ∀ r ∈ records, r.WmfOk) (fuel : Nat) (hf : records.length < fuel) :
    debugWmf (placeable ++ header ++ records.flatMap (·.wmf)) fuel =
      some (shownHeaders placeable header ++
        (shownRecords wmfHead wmfRecordHeader wmfValues (placeable.length + 18) records).1,
        (shownRecords wmfHead wmfRecordHeader wmfValues (placeable.length + 18) records).2) := by
  have hpl := debugPlaceable_stored placeable header (records.flatMap (·.wmf)) hp hh
  obtain ⟨type, rest, rfl, ht, hr⟩ := hh
  revert hpl
  generalize hd : [leBytes 2 type, leBytes 2 9, rest].flatten = header
  intro hpl
  have hl : header.length = 18 := by rw [← hd]; simp [hr]
  have h0 : num header 0 2 = type := by rw [← hd]; exact leField [] 2 _ _ 0 2 rfl rfl (by omega)
  have h1 : num header 2 4 = 9 := by
    rw [← hd]; exact leField [leBytes 2 _] 2 _ _ 2 4 (by simp) rfl (by omega)
  have hs : structAt (fixedMap 18 id) (placeable ++ header ++ records.flatMap (·.wmf)) placeable.length =
      .ok (header, (header.length : Int)) := encodes_fixed 18 id header (by omega) hl placeable _
  have hw := debugRecords_stored wmfHeader wmfHead wmfRecordHeader wmfValues records
    (fun r => by rw [wmfHead_length]; omega) (fun r hr => by rw [wmfHead_length]; exact wmfHead_reads r (h r hr))
    (placeable ++ header ++ records.flatMap (·.wmf)) (placeable ++ header) (by simp; omega) (by rw [wmf_flat]) fuel hf
  have hpl2 : (placeable ++ header).length = placeable.length + 18 := by rw [List.length_append, hl]
  rw [hpl2] at hw
  unfold debugWmf
  rw [hpl]
  dsimp only
  rw [hs]
  dsimp only
  rw [if_pos ⟨by rw [h0]; exact ht, h1⟩, hw]
  rfl

/-- The data that is shown is the data of the record and as many bytes of what follows as there are before it. -/
theorem C172_data (off : Nat) (r : Stored) (post : Bytes) : shownData off r post = r.body ++ post.take off := by
  unfold shownData
  rw [List.take_append, List.take_of_length_le (by omega), Nat.add_sub_cancel_left]

/-- It is the data of the record only if nothing precedes or nothing follows. -/
theorem C172_data_own (off : Nat) (r : Stored) (post : Bytes) : shownData off r post = r.body ↔ off = 0 ∨ post = [] := by
  rw [C172_data]
  simp [List.take_eq_nil_iff]

/-- What is shown of records if the data of each is its own. -/
def ownRecords (head : Stored → Bytes) (header : Nat → Nat → Str) (values : Nat → Bytes → Option (Res Str)) :
    Nat → List Stored → Str × Option Err
  | _, [] => ([], none)
  | off, r :: rs =>
    let t := shownRecord head header values off r r.body
    match t.2 with
    | some e => (t.1, some e)
    | none =>
      let u := ownRecords head header values (off + ((head r).length + r.body.length)) rs
      (t.1 ++ u.1, u.2)

/-- The data that is shown of a record is its data. -/
def C172_data_claim : Prop := ∀ (header : Bytes) (records : List Stored) (fuel : Nat), header.length = 108 →
  (∀ r ∈ records, r.EmfOk) → records.length < fuel →
    (debugEmf (header ++ records.flatMap (·.emf)) fuel).map (·.1) =
      some (Formats.readingText "file header".toList 0 ++ Formats.structureText "file header".toList header ++
        emfFileHeader header ++ (ownRecords emfHead emfRecordHeader emfValues 108 records).1)

theorem C172_data_claim_false : ¬ C172_data_claim := by
  intro hc
  have h := hc (List.replicate 108 0) [⟨1, []⟩, ⟨14, []⟩] 3 (by simp) (by simp [Stored.EmfOk]) (by simp)
  rw [C172_emf _ (by simp) _ (by simp [Stored.EmfOk]) _ (by simp)] at h
  simp only [Option.map_some, Option.some.injEq, List.append_cancel_left_eq] at h
  revert h
  decide +kernel

/-- It is in a file of one record. -/
theorem C172_data_partial (header : Bytes) (r : Stored) (fuel : Nat) (h1 : header.length = 108) (h : r.EmfOk)
    (hf : 1 < fuel) :
    (debugEmf (header ++ r.emf) fuel).map (·.1) =
      some (Formats.readingText "file header".toList 0 ++ Formats.structureText "file header".toList header ++
        emfFileHeader header ++ (ownRecords emfHead emfRecordHeader emfValues 108 [r]).1) := by
  have := C172_emf header h1 [r] (by simpa using h) fuel (by simpa using hf)
  simp only [List.flatMap_cons, List.flatMap_nil, List.append_nil] at this
  rw [this, Option.map_some]
  simp only [shownRecords, ownRecords, List.flatMap_nil, (C172_data_own _ r []).mpr (Or.inr rfl)]

/-! ### Reading with and without debug mode -/

theorem debugRecord_ok (m : DataTypeMap (Nat × Nat)) (header : Nat → Nat → Str)
    (values : Nat → Bytes → Option (Res Str)) (data : Bytes) (off : Nat) (t : Str) (next : Nat)
    (h : debugRecord m header values data off = (t, .ok next)) : ∃ r, readRecord m data off = .ok (r, next) := by
  unfold debugRecord at h
  unfold readRecord
  split at h
  · cases h
  · rename_i type size n hs
    rw [hs]
    dsimp only at h ⊢
    split at h
    · cases h; exact ⟨_, rfl⟩
    · cases h
    · cases h; exact ⟨_, rfl⟩

theorem debugRecords_ok (m : DataTypeMap (Nat × Nat)) (header : Nat → Nat → Str)
    (values : Nat → Bytes → Option (Res Str)) (data : Bytes) (fuel off : Nat) (t : Str) (acc : List Record)
    (h : debugRecords (debugRecord m header values data) data.length fuel off = some (t, none)) :
    ∃ rs, walk (readRecord m data) data.length fuel off acc = some (.ok rs) := by
  induction fuel generalizing off t acc with
  | zero => cases h
  | succ fuel ih =>
    rw [debugRecords] at h
    rw [walk]
    by_cases hl : off < data.length
    · rw [if_pos hl] at h ⊢
      cases hr : debugRecord m header values data off with
      | mk u x =>
        rw [hr] at h
        cases x with
        | error e => cases h
        | ok next =>
          obtain ⟨r, hr⟩ := debugRecord_ok _ _ _ _ _ _ _ hr
          rw [hr]
          dsimp only at h ⊢
          cases hn : debugRecords (debugRecord m header values data) data.length fuel next with
          | none => rw [hn] at h; cases h
          | some v =>
            rw [hn] at h
            obtain ⟨v1, v2⟩ := v
            simp only [Option.map_some, Option.some.injEq, Prod.mk.injEq] at h
            obtain ⟨_, rfl⟩ := h
            exact ih _ _ _ hn
    · rw [if_neg hl]
      exact ⟨_, rfl⟩

/-- A file that is read in debug mode is read. -/
theorem C172_reads (data : Bytes) (fuel : Nat) (t : Str) :
    (debugEmf data fuel = some (t, none) → ∃ rs, readEmf data fuel = some (.ok rs)) ∧
    (debugWmf data fuel = some (t, none) → ∃ rs, readWmf data fuel = some (.ok rs)) := by
  constructor
  · intro h
    unfold debugEmf at h
    unfold readEmf
    split at h
    · cases h
    · rename_i b n hs
      rw [hs]
      dsimp only
      cases hn : debugRecords (debugRecord emfHeader emfRecordHeader emfValues data) data.length fuel 108 with
      | none => rw [hn] at h; cases h
      | some v =>
        rw [hn] at h
        obtain ⟨v1, v2⟩ := v
        simp only [Option.map_some, Option.some.injEq, Prod.mk.injEq] at h
        obtain ⟨_, rfl⟩ := h
        exact debugRecords_ok _ _ _ _ _ _ _ _ hn
  · intro h
    unfold debugWmf at h
    unfold readWmf
    have hp : ∀ off u, debugPlaceable data = (u, .ok off) → readPlaceable data = .ok off := by
      intro off u hu
      unfold debugPlaceable at hu
      unfold readPlaceable
      by_cases h1 : data.length < 4
      · rw [if_pos h1] at hu; cases hu
      · rw [if_neg h1] at hu ⊢
        by_cases h2 : slice data 0 4 = placeableSignature
        · rw [if_pos h2] at hu ⊢
          split at hu
          · cases hu
          · rename_i b n hs
            rw [hs]
            cases hu; rfl
        · rw [if_neg h2] at hu ⊢
          cases hu; rfl
    split at h
    · cases h
    · rename_i u off hu
      rw [hp _ _ hu]
      dsimp only
      split at h
      · cases h
      · rename_i b n hs
        dsimp only at h
        by_cases hb : (num b 0 2 = 1 ∨ num b 0 2 = 2) ∧ num b 2 4 = 9
        · rw [if_pos hb] at h
          have hw : structAt wmfFileHeader data off = .ok ((), n) := by
            unfold wmfFileHeader
            rw [structAt_refine, hs]
            have : (leNat (slice b 0 2) = 1 ∨ leNat (slice b 0 2) = 2) ∧ leNat (slice b 2 4) = 9 := hb
            simp [this]
          rw [hw]
          dsimp only
          cases hn : debugRecords (debugRecord wmfHeader wmfRecordHeader wmfValues data) data.length fuel (off + 18) with
          | none => rw [hn] at h; cases h
          | some v =>
            rw [hn] at h
            obtain ⟨v1, v2⟩ := v
            simp only [Option.map_some, Option.some.injEq, Prod.mk.injEq] at h
            obtain ⟨_, rfl⟩ := h
            exact debugRecords_ok _ _ _ _ _ _ _ _ hn
        · rw [if_neg hb] at h
          cases h

/-- A file that is read is read in debug mode. -/
def C172_debug_claim : Prop := ∀ (data : Bytes) (fuel : Nat) (rs : List Record), readEmf data fuel = some (.ok rs) →
  ∃ t, debugEmf data fuel = some (t, none)

theorem C172_debug_claim_false : ¬ C172_debug_claim := by
  intro hc
  obtain ⟨rs, hr, _⟩ := C48_emf_partial (List.replicate 108 0) (by simp) [⟨0x18, []⟩] (by simp [Stored.EmfOk]) 2 (by simp)
  obtain ⟨t, ht⟩ := hc _ _ _ hr
  rw [C172_emf _ (by simp) _ (by simp [Stored.EmfOk]) _ (by simp)] at ht
  simp only [Option.some.injEq, Prod.mk.injEq] at ht
  have := ht.2
  revert this
  decide +kernel

/-- The size of the data of the records that have values: of Enhanced Metafiles, and of Windows Metafiles. -/
def emfNeeds (type : Nat) : Nat := if type = 0x18 ∨ type = 0x25 then 4 else 0

def wmfNeeds (type : Nat) : Nat :=
  if type = 0x103 ∨ type = 0x107 ∨ type = 0x127 then 2 else if type = 0x20b ∨ type = 0x20c then 4
  else if type = 0xb41 then 20 else 0

theorem emfValues_error (type : Nat) (b : Bytes) : (∃ e, emfValues type b = some (.error e)) ↔ b.length < emfNeeds type := by
  unfold emfValues emfNeeds
  by_cases h1 : type = 0x18
  · by_cases h : b.length < 4 <;> simp [h1, h]
  · by_cases h2 : type = 0x25
    · by_cases h : b.length < 4 <;> simp [h2, h]
    · simp [h1, h2]

theorem wmfValues_error (type : Nat) (b : Bytes) : (∃ e, wmfValues type b = some (.error e)) ↔ b.length < wmfNeeds type := by
  unfold wmfValues wmfNeeds
  by_cases h1 : type = 0x103
  · by_cases h : b.length < 2 <;> simp [h1, h]
  by_cases h2 : type = 0x107
  · by_cases h : b.length < 2 <;> simp [h2, h]
  by_cases h3 : type = 0x127
  · by_cases h : b.length < 2 <;> simp [h3, h]
  by_cases h4 : type = 0x20b ∨ type = 0x20c
  · by_cases h : b.length < 4 <;> simp [h1, h2, h3, h4, h]
  by_cases h5 : type = 0xb41
  · by_cases h : b.length < 20 <;> simp [h5, h]
  · simp [h1, h2, h3, h4, h5]

theorem shownRecords_none (head : Stored → Bytes) (header : Nat → Nat → Str) (values : Nat → Bytes → Option (Res Str))
    (needs : Nat → Nat) (hn : ∀ type b, (∃ e, values type b = some (.error e)) ↔ b.length < needs type)
    (records : List Stored) (h : ∀ r ∈ records, needs r.type ≤ r.body.length) (off : Nat) :
    (shownRecords head header values off records).2 = none := by
  induction records generalizing off with
  | nil => rfl
  | cons r rs ih =>
    have hr := h r (by simp)
    have hs : ∀ b, r.body.length ≤ b.length → (shownRecord head header values off r b).2 = none := by
      intro b hb
      have := (hn r.type b).not.mpr (by omega)
      unfold shownRecord
      dsimp only
      cases hv : values r.type b with
      | none => rfl
      | some v =>
        cases v with
        | error e => exact absurd ⟨e, hv⟩ this
        | ok t => rfl
    unfold shownRecords
    dsimp only
    rw [hs _ (by rw [C172_data]; simp)]
    exact ih (fun r hr => h r (by simp [hr])) _

/-- It is if the records with values have the data of them. -/
theorem C172_debug_partial (header : Bytes) (h1 : header.length = 108) (records : List Stored)
    (h : ∀ r ∈ records, r.EmfOk ∧ emfNeeds r.type ≤ r.body.length) (fuel : Nat) (hf : records.length < fuel) :
    ∃ t, debugEmf (header ++ records.flatMap (·.emf)) fuel = some (t, none) := by
  rw [C172_emf header h1 records (fun r hr => (h r hr).1) fuel hf,
    shownRecords_none emfHead _ _ emfNeeds emfValues_error records (fun r hr => (h r hr).2)]
  exact ⟨_, rfl⟩

theorem C172_debug_wmf_partial (placeable header : Bytes) (hp : Placeable placeable) (hh : WmfHeader header)
    (records : List Stored) (h : ∀ r ∈ records, r.WmfOk ∧ wmfNeeds r.type ≤ r.body.length) (fuel : Nat)
    (hf : records.length < fuel) :
    ∃ t, debugWmf (placeable ++ header ++ records.flatMap (·.wmf)) fuel = some (t, none) := by
  rw [C172_wmf placeable header hp hh records (fun r hr => (h r hr).1) fuel hf,
    shownRecords_none wmfHead _ _ wmfNeeds wmfValues_error records (fun r hr => (h r hr).2)]
  exact ⟨_, rfl⟩

/-- The last record is the one that can have too little data: a record with too little data that others follow is read
with theirs. -/
theorem C172_borrowed (off : Nat) (r s : Stored) (hs : s.EmfOk) (post : Bytes) (h : 4 ≤ off) (h2 : r.type = 0x18)
    (h3 : r.body = []) :
    ∃ t, shownRecord emfHead emfRecordHeader emfValues off r (shownData off r (s.emf ++ post)) =
      (t ++ value "Color" (hex 4 s.type) ++ ['\n'], none) := by
  have hd : (shownData off r (s.emf ++ post)).take 4 = leBytes 4 s.type := by
    rw [C172_data, h3, List.nil_append, List.take_take, Nat.min_eq_left h]
    simp only [Stored.emf, List.flatten_cons, List.append_assoc]
    rw [List.take_left' (by simp)]
  have hl : ¬ (shownData off r (s.emf ++ post)).length < 4 := by
    have := congrArg List.length hd
    rw [leBytes_length, List.length_take] at this
    omega
  have hn : num (shownData off r (s.emf ++ post)) 0 4 = s.type := by
    unfold num slice
    rw [List.drop_zero, hd, leNat_leBytes, Nat.mod_eq_of_lt hs.1]
  unfold shownRecord emfValues
  dsimp only
  rw [if_pos h2, if_neg hl, hn]
  exact ⟨_, by rw [List.append_assoc _ (value "Color" _)]⟩

/-! ### The values of the records -/

/-- The names of modes of [MS-WMF] 2.1.1.30. -/
def stretchMode : Nat → String
  | 1 => "BLACKONWHITE"
  | 2 => "WHITEONBLACK"
  | 3 => "COLORONCOLOR"
  | 4 => "HALFTONE"
  | _ => "UNKNOWN"

/-- The names of modes of [MS-WMF] 2.1.1.16. -/
def mapMode : Nat → String
  | 1 => "MM_TEXT"
  | 2 => "MM_LOMETRIC"
  | 3 => "MM_HIMETRIC"
  | 4 => "MM_LOENGLISH"
  | 5 => "MM_HIENGLISH"
  | 6 => "MM_TWIPS"
  | 7 => "MM_ISOTROPIC"
  | 8 => "MM_ANISOTROPIC"
  | _ => "UNKNOWN"

/-- A line with a number in hexadecimal and a name. -/
def namedLine (label : String) (w n : Nat) (name : String) : Str :=
  Formats.formatValue label.toList ("0x".toList ++ Formats.hexw w n ++ " (".toList ++ name.toList ++ ")".toList)

/-- A line with a number in decimal. -/
def numberLine (label : String) (n : Int) : Str := Formats.formatValue label.toList (Formats.decInt n)

theorem mapModes_eq (n : Nat) : nameOf mapModes n = (mapMode n).toList := by
  by_cases h : n < 9
  · have : ∀ n < 9, nameOf mapModes n = (mapMode n).toList := by decide +kernel
    exact this n h
  · have h1 : mapModes.lookup n = none := by
      rw [List.lookup_eq_none_iff]
      have : ∀ p ∈ mapModes, p.1 < 9 := by decide +kernel
      intro p hp
      have := this p hp
      simp; omega
    have h2 : mapMode n = "UNKNOWN" := by
      unfold mapMode
      split <;> first | omega | rfl
    unfold nameOf
    rw [h1, h2]

theorem num_start (w n : Nat) (rest : Bytes) (h : n < 256 ^ w) : num (leBytes w n ++ rest) 0 w = n := by
  unfold num slice
  rw [List.drop_zero, List.take_left' (by simp), leNat_leBytes, Nat.mod_eq_of_lt h]

/-- The mode of a record that sets the map mode is shown with its name. -/
theorem C172_map_mode (n : Nat) (h : n < 2 ^ 16) (rest : Bytes) :
    wmfValues 0x103 (leBytes 2 n ++ rest) = some (.ok (namedLine "Map mode" 4 n (mapMode n) ++ ['\n'])) := by
  unfold wmfValues
  rw [if_pos rfl, if_neg (by simp), num_start 2 n rest h]
  unfold named
  rw [mapModes_eq]
  rfl

/-- That of a record that sets the stretch mode is shown with the name of a map mode. -/
theorem C172_stretch_mode (n : Nat) (h : n < 2 ^ 16) (rest : Bytes) :
    wmfValues 0x107 (leBytes 2 n ++ rest) = some (.ok (namedLine "Stretch mode" 4 n (mapMode n) ++ ['\n'])) := by
  unfold wmfValues
  rw [if_neg (by decide), if_pos rfl, if_neg (by simp), num_start 2 n rest h]
  unfold named
  rw [mapModes_eq]
  rfl

/-- It is shown with the name of the mode. -/
def C172_stretch_claim : Prop := ∀ (n : Nat) (rest : Bytes), n < 2 ^ 16 →
  wmfValues 0x107 (leBytes 2 n ++ rest) = some (.ok (namedLine "Stretch mode" 4 n (stretchMode n) ++ ['\n']))

theorem namedLine_injective (label : String) (w n : Nat) (a b : String)
    (h : namedLine label w n a = namedLine label w n b) : a = b := by
  unfold namedLine Formats.formatValue at h
  simp only [List.append_assoc, List.append_cancel_left_eq, List.append_cancel_right_eq] at h
  exact String.toList_inj.mp h

/-- It is for the numbers without a name in both, and for no other. -/
theorem C172_stretch_partial (n : Nat) (h : n < 2 ^ 16) (rest : Bytes) :
    wmfValues 0x107 (leBytes 2 n ++ rest) = some (.ok (namedLine "Stretch mode" 4 n (stretchMode n) ++ ['\n'])) ↔
      n = 0 ∨ 8 < n := by
  rw [C172_stretch_mode n h]
  constructor
  · intro he
    simp only [Option.some.injEq, Except.ok.injEq, List.append_cancel_right_eq] at he
    have he := namedLine_injective _ _ _ _ _ he
    have : ∀ n < 9, mapMode n = stretchMode n → n = 0 := by decide +kernel
    by_cases h8 : n < 9
    · exact Or.inl (this n h8 he)
    · omega
  · intro hn
    have : mapMode n = stretchMode n := by
      rcases hn with rfl | hn
      · rfl
      · unfold mapMode stretchMode
        split <;> first | omega | skip
        split <;> first | omega | rfl
    rw [this]

theorem C172_stretch_claim_false : ¬ C172_stretch_claim := by
  intro hc
  have := (C172_stretch_partial 3 (by decide) []).mp (hc 3 [] (by decide))
  omega

/-- A 16-bit signed integer as it is stored. -/
def int16 (n : Int) : Bytes := leBytes 2 (n % 2 ^ 16).toNat

theorem int16_length (n : Int) : (int16 n).length = 2 := by simp [int16]

theorem int16_num (n : Int) : leNat (int16 n) = (n % 2 ^ 16).toNat := by
  unfold int16
  rw [leNat_leBytes, Nat.mod_eq_of_lt]
  show _ < 2 ^ 16
  omega

/-- The lines of a point. -/
def pointLines (x y : Int) : Str := numberLine "X coordinate" x ++ numberLine "Y coordinate" y ++ ['\n']

/-- The records that set the origin and the extent of the window, in which y precedes x ([MS-WMF] 2.3.5.31, 2.3.5.30). -/
theorem C172_window (type : Nat) (ht : type = 0x20b ∨ type = 0x20c) (x y : Int) (rest : Bytes) :
    wmfValues type (int16 y ++ int16 x ++ rest) = some (.ok (pointLines (y % 2 ^ 16) (x % 2 ^ 16))) := by
  have e : int16 y ++ int16 x ++ rest = [int16 y, int16 x, rest].flatten := by simp
  have h0 : num (int16 y ++ int16 x ++ rest) 0 2 = (y % 2 ^ 16).toNat := by
    rw [e, ← int16_num]; exact congrArg leNat (slice_fields [] _ _ 0 2 rfl (by simp [int16_length]))
  have h1 : num (int16 y ++ int16 x ++ rest) 2 4 = (x % 2 ^ 16).toNat := by
    rw [e, ← int16_num]
    exact congrArg leNat (slice_fields [int16 y] _ _ 2 4 (by simp [int16_length]) (by simp [int16_length]))
  unfold wmfValues
  rw [if_neg (by omega), if_neg (by omega), if_neg (by omega), if_pos ht, if_neg (by simp [int16_length]; omega), h0, h1]
  unfold pointLines numberLine
  have c : ∀ n : Int, Formats.decInt (n % 2 ^ 16) = digits 10 (n % 2 ^ 16).toNat := by
    intro n
    have : (n % 2 ^ 16) = (((n % 2 ^ 16).toNat : Nat) : Int) := by omega
    rw [this, Int.toNat_natCast]
    unfold Formats.decInt
    rw [if_neg (by omega)]
    rfl
  rw [c, c]
  rfl

theorem numberLine_injective (label : String) (m n : Int) (u v : Str)
    (h : numberLine label m ++ u = numberLine label n ++ v) : m = n ∧ u = v := by
  unfold numberLine Formats.formatValue at h
  simp only [List.append_assoc, List.append_cancel_left_eq] at h
  have hm : ∀ i, '\n' ∉ Formats.decInt i := fun i => Formats.decInt_notMem i '\n' (by decide) (by decide)
  obtain ⟨h1, h2⟩ := Formats.append_sep_inj '\n' _ _ _ _ (hm m) (hm n) h
  exact ⟨Formats.decInt_injective _ _ h1, h2⟩

/-- The coordinates of a window are shown. -/
def C172_window_claim : Prop := ∀ (x y : Int) (rest : Bytes), -2 ^ 15 ≤ x → x < 2 ^ 15 → -2 ^ 15 ≤ y → y < 2 ^ 15 →
  wmfValues 0x20b (int16 y ++ int16 x ++ rest) = some (.ok (pointLines x y))

/-- They are if both are the same, which is not negative. -/
theorem C172_window_partial (type : Nat) (ht : type = 0x20b ∨ type = 0x20c) (x y : Int) (rest : Bytes)
    (hx : -2 ^ 15 ≤ x) (hx' : x < 2 ^ 15) (hy : -2 ^ 15 ≤ y) (hy' : y < 2 ^ 15) :
    wmfValues type (int16 y ++ int16 x ++ rest) = some (.ok (pointLines x y)) ↔ x = y ∧ 0 ≤ x := by
  rw [C172_window type ht]
  constructor
  · intro h
    simp only [Option.some.injEq, Except.ok.injEq] at h
    unfold pointLines at h
    simp only [List.append_assoc] at h
    obtain ⟨h1, h2⟩ := numberLine_injective _ _ _ _ _ h
    obtain ⟨h3, _⟩ := numberLine_injective _ _ _ _ _ h2
    omega
  · rintro ⟨rfl, h0⟩
    rw [Int.emod_eq_of_lt h0 (by omega)]

theorem C172_window_claim_false : ¬ C172_window_claim := by
  intro hc
  have := (C172_window_partial 0x20b (Or.inl rfl) 640 480 [] (by omega) (by omega) (by omega) (by omega)).mp
    (hc 640 480 [] (by omega) (by omega) (by omega) (by omega))
  omega

/-- The lines of a stretched bitmap. -/
def stretchLines (operation : Nat) (name : String) (sourceHeight sourceWidth sourceX sourceY destHeight destWidth destX
    destY : Int) : Str :=
  namedLine "Raster operation" 8 operation name ++
    numberLine "Source height" sourceHeight ++ numberLine "Source width" sourceWidth ++
    numberLine "Source X coordinate" sourceX ++ numberLine "Source Y coordinate" sourceY ++
    numberLine "Destination height" destHeight ++ numberLine "Destination width" destWidth ++
    numberLine "Destination X coordinate" destX ++ numberLine "Destination Y coordinate" destY ++ ['\n']

/-- The name of an operation that is shown. -/
def rasterName (n : Nat) : String := (rasterOperations.lookup n).getD "UNKNOWN"

/-- The data of the record of a stretched bitmap ([MS-WMF] 2.3.1.3). -/
def stretchData (operation : Nat) (sourceHeight sourceWidth sourceY sourceX destHeight destWidth destY destX : Int) : Bytes :=
  [leBytes 4 operation, int16 sourceHeight, int16 sourceWidth, int16 sourceY, int16 sourceX, int16 destHeight,
    int16 destWidth, int16 destY, int16 destX].flatten

/-- What is shown of the record of a stretched bitmap: x and y are swapped, and no number is negative. -/
theorem C172_bitmap (operation : Nat) (h : operation < 2 ^ 32) (sh sw sy sx dh dw dy dx : Int) (rest : Bytes) :
    wmfValues 0xb41 (stretchData operation sh sw sy sx dh dw dy dx ++ rest) =
      some (.ok (stretchLines operation (rasterName operation) (sh % 2 ^ 16) (sw % 2 ^ 16) (sy % 2 ^ 16) (sx % 2 ^ 16)
        (dh % 2 ^ 16) (dw % 2 ^ 16) (dy % 2 ^ 16) (dx % 2 ^ 16))) := by
  have e : stretchData operation sh sw sy sx dh dw dy dx ++ rest = [leBytes 4 operation, int16 sh, int16 sw, int16 sy,
      int16 sx, int16 dh, int16 dw, int16 dy, int16 dx, rest].flatten := by simp [stretchData]
  have hl : (stretchData operation sh sw sy sx dh dw dy dx).length = 20 := by simp [stretchData, int16_length]
  have f : ∀ (pre : List Bytes) (n : Int) (post : List Bytes) (i j : Nat),
      (pre.map List.length).sum = i → i + 2 = j →
      num ((pre ++ int16 n :: post).flatten) i j = (n % 2 ^ 16).toNat := by
    intro pre n post i j hi hj
    rw [← int16_num]
    exact congrArg leNat (slice_fields pre _ _ i j hi (by rw [int16_length]; omega))
  have l4 : (leBytes 4 operation).length = 4 := by simp
  have h0 : num (stretchData operation sh sw sy sx dh dw dy dx ++ rest) 0 4 = operation := by
    rw [e]; exact leField [] 4 _ _ 0 4 rfl rfl h
  have h1 : num (stretchData operation sh sw sy sx dh dw dy dx ++ rest) 4 6 = (sh % 2 ^ 16).toNat := by
    rw [e]; exact f [leBytes 4 operation] _ _ _ _ (by simp) rfl
  have h2 : num (stretchData operation sh sw sy sx dh dw dy dx ++ rest) 6 8 = (sw % 2 ^ 16).toNat := by
    rw [e]; exact f [leBytes 4 operation, int16 sh] _ _ _ _ (by simp [int16_length]) rfl
  have h3 : num (stretchData operation sh sw sy sx dh dw dy dx ++ rest) 8 10 = (sy % 2 ^ 16).toNat := by
    rw [e]; exact f [leBytes 4 operation, int16 sh, int16 sw] _ _ _ _ (by simp [int16_length]) rfl
  have h4 : num (stretchData operation sh sw sy sx dh dw dy dx ++ rest) 10 12 = (sx % 2 ^ 16).toNat := by
    rw [e]; exact f [leBytes 4 operation, int16 sh, int16 sw, int16 sy] _ _ _ _ (by simp [int16_length]) rfl
  have h5 : num (stretchData operation sh sw sy sx dh dw dy dx ++ rest) 12 14 = (dh % 2 ^ 16).toNat := by
    rw [e]; exact f [leBytes 4 operation, int16 sh, int16 sw, int16 sy, int16 sx] _ _ _ _ (by simp [int16_length]) rfl
  have h6 : num (stretchData operation sh sw sy sx dh dw dy dx ++ rest) 14 16 = (dw % 2 ^ 16).toNat := by
    rw [e]
    exact f [leBytes 4 operation, int16 sh, int16 sw, int16 sy, int16 sx, int16 dh] _ _ _ _ (by simp [int16_length]) rfl
  have h7 : num (stretchData operation sh sw sy sx dh dw dy dx ++ rest) 16 18 = (dy % 2 ^ 16).toNat := by
    rw [e]
    exact f [leBytes 4 operation, int16 sh, int16 sw, int16 sy, int16 sx, int16 dh, int16 dw] _ _ _ _
      (by simp [int16_length]) rfl
  have h8 : num (stretchData operation sh sw sy sx dh dw dy dx ++ rest) 18 20 = (dx % 2 ^ 16).toNat := by
    rw [e]
    exact f [leBytes 4 operation, int16 sh, int16 sw, int16 sy, int16 sx, int16 dh, int16 dw, int16 dy] _ _ _ _
      (by simp [int16_length]) rfl
  unfold wmfValues
  rw [if_neg (by omega), if_neg (by omega), if_neg (by omega), if_neg (by omega), if_pos rfl,
    if_neg (by rw [List.length_append, hl]; omega), h0, h1, h2, h3, h4, h5, h6, h7, h8]
  have c : ∀ n : Int, Formats.decInt (n % 2 ^ 16) = digits 10 (n % 2 ^ 16).toNat := by
    intro n
    have : (n % 2 ^ 16) = (((n % 2 ^ 16).toNat : Nat) : Int) := by omega
    rw [this, Int.toNat_natCast]
    unfold Formats.decInt
    rw [if_neg (by omega)]
    rfl
  have hn : nameOf rasterOperations operation = (rasterName operation).toList := by
    unfold nameOf rasterName
    cases rasterOperations.lookup operation <;> rfl
  unfold stretchLines numberLine
  simp only [c]
  unfold named
  rw [hn]
  rfl

/-- The record that restores a device context, of which the number is negative if it is relative ([MS-WMF] 2.3.5.10),
shows a number that is not. -/
theorem C172_restore (n : Int) (rest : Bytes) :
    wmfValues 0x127 (int16 n ++ rest) = some (.ok (numberLine "Number of saved device context" (n % 2 ^ 16) ++ ['\n'])) := by
  have h0 : num (int16 n ++ rest) 0 2 = (n % 2 ^ 16).toNat := by
    rw [← int16_num]
    unfold num slice
    rw [List.drop_zero, List.take_left' (int16_length n)]
  unfold wmfValues
  rw [if_neg (by omega), if_neg (by omega), if_pos rfl, if_neg (by simp [int16_length]), h0]
  unfold numberLine Formats.decInt
  have hz : ¬ n % 2 ^ 16 < 0 := by omega
  have hz' : (n % 2 ^ 16).natAbs = (n % 2 ^ 16).toNat := by omega
  rw [if_neg hz, hz']
  rfl

/-- The number of the device context is shown. -/
def C172_restore_claim : Prop := ∀ (n : Int) (rest : Bytes), -2 ^ 15 ≤ n → n < 2 ^ 15 →
  wmfValues 0x127 (int16 n ++ rest) = some (.ok (numberLine "Number of saved device context" n ++ ['\n']))

/-- It is if it is not negative. -/
theorem C172_restore_partial (n : Int) (rest : Bytes) (h : -2 ^ 15 ≤ n) (h' : n < 2 ^ 15) :
    wmfValues 0x127 (int16 n ++ rest) = some (.ok (numberLine "Number of saved device context" n ++ ['\n'])) ↔ 0 ≤ n := by
  rw [C172_restore]
  constructor
  · intro he
    simp only [Option.some.injEq, Except.ok.injEq] at he
    have := (numberLine_injective _ _ _ _ _ he).1
    omega
  · intro h0
    rw [Int.emod_eq_of_lt h0 (by omega)]

theorem C172_restore_claim_false : ¬ C172_restore_claim := by
  intro hc
  have := (C172_restore_partial (-1) [] (by omega) (by omega)).mp (hc (-1) [] (by omega) (by omega))
  omega

/-- The color and the object of records of Enhanced Metafiles. -/
theorem C172_color (n : Nat) (h : n < 2 ^ 32) (rest : Bytes) :
    emfValues 0x18 (leBytes 4 n ++ rest) =
      some (.ok (Formats.formatValue "Color".toList ("0x".toList ++ Formats.hexw 4 n) ++ ['\n'])) := by
  unfold emfValues
  rw [if_pos rfl, if_neg (by simp), num_start 4 n rest h]
  rfl

theorem C172_object (n : Nat) (h : n < 2 ^ 32) (rest : Bytes) :
    emfValues 0x25 (leBytes 4 n ++ rest) = some (.ok ((match stockObjects.lookup n with
      | some name => namedLine "Object identifier" 8 n name
      | none => Formats.formatValue "Object identifier".toList ("0x".toList ++ Formats.hexw 8 n)) ++ ['\n'])) := by
  unfold emfValues
  rw [if_neg (by decide), if_pos rfl, if_neg (by simp), num_start 4 n rest h]
  cases stockObjects.lookup n <;> rfl

/-- A name is shown of the objects of which the highest bit is set, and of no other ([MS-EMF] 2.1.31). -/
theorem C172_stock (n : Nat) (name : String) (h : stockObjects.lookup n = some name) : 2 ^ 31 ≤ n ∧ n < 2 ^ 31 + 20 := by
  have : ∀ p ∈ stockObjects, 2 ^ 31 ≤ p.1 ∧ p.1 < 2 ^ 31 + 20 := by decide +kernel
  have hm : (n, name) ∈ stockObjects := by
    rw [List.lookup_eq_some_iff] at h
    obtain ⟨a, b, h, _⟩ := h
    rw [h]; simp
  exact this _ hm

/-- No two types of records have the same number or the same name. -/
theorem C172_names :
    (emfTypes.map (·.1)).Nodup ∧ (emfTypes.map (·.2)).Nodup ∧ (wmfTypes.map (·.1)).Nodup ∧ (wmfTypes.map (·.2)).Nodup ∧
    (stockObjects.map (·.1)).Nodup ∧ (stockObjects.map (·.2)).Nodup ∧ (rasterOperations.map (·.1)).Nodup := by
  decide +kernel

/-! ### Raster operations -/

/-- The names of [MS-WMF] 2.1.1.31 of operations in words, in reverse Polish notation. -/
def inWords : String → String
  | "NOTSRCERASE" => "DSon"
  | "NOTSRCCOPY" => "Sn"
  | "SRCERASE" => "SDna"
  | "DSTINVERT" => "Dn"
  | "PATINVERT" => "DPx"
  | "SRCINVERT" => "DSx"
  | "SRCAND" => "DSa"
  | "MERGEPAINT" => "DSno"
  | "MERGECOPY" => "PSa"
  | "SRCCOPY" => "S"
  | "SRCPAINT" => "DSo"
  | "PATCOPY" => "P"
  | "PATPAINT" => "DPSnoo"
  | "BLACKNESS" => "0"
  | "WHITENESS" => "1"
  | s => s

/-- An expression in reverse Polish notation over the pattern, source and destination, of which the bits are those of
their combinations: the index of the operation. -/
def rpn : List Char → List Nat → Option Nat
  | [], [n] => some n
  | [], _ => none
  | '0' :: s, st => rpn s (0 :: st)
  | '1' :: s, st => rpn s (0xff :: st)
  | 'P' :: s, st => rpn s (0xf0 :: st)
  | 'S' :: s, st => rpn s (0xcc :: st)
  | 'D' :: s, st => rpn s (0xaa :: st)
  | c :: s, st =>
    if c = 'N' ∨ c = 'n' then match st with | a :: st => rpn s ((0xff - a) :: st) | _ => none
    else match st with
      | b :: a :: st =>
        if c = 'A' ∨ c = 'a' then rpn s ((a &&& b) :: st) else if c = 'O' ∨ c = 'o' then rpn s ((a ||| b) :: st)
        else if c = 'X' ∨ c = 'x' then rpn s ((a ^^^ b) :: st) else none
      | _ => none

/-- The index of the operation a name is of. -/
def index (name : String) : Option Nat := rpn (inWords name).toList []

/-- There is one operation for each index, in order. -/
theorem C172_indexes : rasterOperations.map (fun p => p.1 / 2 ^ 16) = List.range 256 := by decide +kernel

/-- The operands the lower 16 bits of a code can start from, by bits 2 to 4, as in [MS-WMF] 2.1.1.31 and the Windows
documentation of ternary raster operations. -/
def operands : Nat → List Nat
  | 0 => [0xcc, 0xf0, 0xaa, 0xaa, 0xaa, 0xaa, 0xaa, 0xaa]
  | 1 => [0xcc, 0xf0, 0xaa, 0xcc, 0xf0, 0xaa, 0xcc, 0xf0, 0xaa]
  | 2 => [0xcc, 0xaa, 0xf0, 0xcc, 0xaa, 0xf0, 0xcc, 0xaa, 0xf0]
  | _ => [0xaa, 0xaa, 0xaa, 0xaa, 0xaa, 0xaa, 0xaa, 0xaa]

/-- The operators by their 2 bits, on a stack. -/
def operate : List Nat → List Nat → Option Nat
  | [], [n] => some n
  | [], _ => none
  | 0 :: ops, a :: st => operate ops ((0xff - a) :: st)
  | 1 :: ops, b :: a :: st => operate ops ((a ^^^ b) :: st)
  | 2 :: ops, b :: a :: st => operate ops ((a ||| b) :: st)
  | 3 :: ops, b :: a :: st => operate ops ((a &&& b) :: st)
  | _, _ => none

/-- An operator of 2 operands. -/
def pair (op a b : Nat) : Option Nat := operate [op] [b, a]

/-- What the lower 16 bits of a code compute: 5 operators in bits 6 to 15, on operands from an offset in bits 0 and 1, that
is negated if bit 5 is set. Of the last 3 lists of operands the first 2 operators are of separate pairs. -/
def computes (code : Nat) : Option Nat := do
  let offset := code % 4
  let list := code / 4 % 8
  let ops := [code / 2 ^ 6 % 4, code / 2 ^ 8 % 4, code / 2 ^ 10 % 4, code / 2 ^ 12 % 4, code / 2 ^ 14 % 4]
  let n ← if list < 5 then
      operate ops (((operands list).drop offset).take ((ops.filter (· ≠ 0)).length + 1)).reverse
    else do
      let first ← pair ops[0]! 0xcc (if list = 7 then 0xaa else 0xf0)
      let second ← if list = 5 then pair ops[1]! 0xaa 0xcc else pair ops[1]! 0xf0 0xaa
      operate (ops.drop 2) ([second, first] ++ if offset = 0 then [0xcc] else [])
  return if code / 2 ^ 5 % 2 = 1 then 0xff - n else n

/-- The lower 16 bits of each code compute the operation of which its upper 16 bits are the index. -/
theorem C172_codes : ∀ p ∈ rasterOperations, computes (p.1 % 2 ^ 16) = some (p.1 / 2 ^ 16) := by decide +kernel

example : rasterOperations.lookup 0x00bb0226 = some "MERGEPAINT" ∧ computes 0x0226 = some 0xbb ∧ computes 0x0227 ≠ some 0xbb := by
  decide +kernel

/-- The name of an operation is that of its index. -/
def C172_raster_claim : Prop := ∀ p ∈ rasterOperations, index p.2 = some (p.1 / 2 ^ 16)

/-- It is but for 39: those with an index from 0x01 up to and including 0x26, and 0x6f. -/
theorem C172_raster_partial : ∀ p ∈ rasterOperations,
    (index p.2 = some (p.1 / 2 ^ 16) ↔ ¬ ((1 ≤ p.1 / 2 ^ 16 ∧ p.1 / 2 ^ 16 ≤ 0x26) ∨ p.1 / 2 ^ 16 = 0x6f)) := by
  decide +kernel

theorem C172_raster_claim_false : ¬ C172_raster_claim := by
  intro hc
  obtain ⟨p, hp, h1⟩ : ∃ p ∈ rasterOperations, p.1 / 2 ^ 16 = 1 := by decide +kernel
  exact (C172_raster_partial p hp).mp (hc p hp) (by omega)

/-! ### The script -/

/-- The script reads a file with the signature as an Enhanced Metafile and any other as a Windows Metafile. -/
theorem C172_script (data : Bytes) (fuel : Nat) :
    (slice data 40 44 = " EMF".toUTF8.toList →
      script true data fuel = (debugEmf data fuel).map (fun r => match r.2 with
        | some e => (r.1, some e)
        | none => (r.1 ++ "Windows Enhanced Metafile information:".toList, none))) ∧
    (slice data 40 44 ≠ " EMF".toUTF8.toList →
      script true data fuel = (debugWmf data fuel).map (fun r => match r.2 with
        | some e => (r.1, some e)
        | none => (r.1 ++ "Windows Metafile information:".toList, none))) := by
  have hs : " EMF".toUTF8.toList = [0x20, 0x45, 0x4d, 0x46] := by decide +kernel
  rw [hs]
  constructor
  · intro h
    unfold script
    rw [h]
    rfl
  · intro h
    have h' : (slice data 40 44 == [0x20, 0x45, 0x4d, 0x46]) = false := by simpa using h
    unfold script
    rw [h']
    rfl

/-- Without debug mode it shows which of both a file is that is read, and nothing else. -/
theorem C172_quiet (data : Bytes) (fuel : Nat) (t : Str) (o : Option Err) (h : script false data fuel = some (t, o)) :
    t = [] ∨ t = "Windows Enhanced Metafile information:".toList ∨ t = "Windows Metafile information:".toList := by
  unfold script at h
  dsimp only at h
  cases hs : slice data 40 44 == [0x20, 0x45, 0x4d, 0x46] <;> rw [hs] at h
  · cases hr : readWmf data fuel with
    | none => simp [hr] at h
    | some r =>
      cases r with
      | error e =>
        simp [hr] at h
        exact Or.inl h.1
      | ok rs =>
        simp only [hr, Bool.false_eq_true, if_false, Option.map_some, Option.some.injEq, Prod.mk.injEq] at h
        right; right
        rw [← h.1]
        rfl
  · cases hr : readEmf data fuel with
    | none => simp [hr] at h
    | some r =>
      cases r with
      | error e =>
        simp [hr] at h
        exact Or.inl h.1
      | ok rs =>
        simp only [hr, Bool.false_eq_true, if_false, if_true, Option.map_some, Option.some.injEq, Prod.mk.injEq] at h
        right; left
        rw [← h.1]
        rfl

/-- A Windows Metafile is read as one. -/
def C172_kind_claim : Prop := ∀ (placeable header : Bytes) (records : List Stored) (fuel : Nat), Placeable placeable →
  WmfHeader header → (∀ r ∈ records, r.WmfOk) → records.length < fuel →
    script false (placeable ++ header ++ records.flatMap (·.wmf)) fuel = some ("Windows Metafile information:".toList, none)

/-- It is if it does not have the signature of Enhanced Metafiles at offset 40. -/
theorem C172_kind_partial (placeable header : Bytes) (records : List Stored) (fuel : Nat) (hp : Placeable placeable)
    (hh : WmfHeader header) (h : ∀ r ∈ records, r.WmfOk) (hf : records.length < fuel)
    (hs : slice (placeable ++ header ++ records.flatMap (·.wmf)) 40 44 ≠ " EMF".toUTF8.toList) :
    script false (placeable ++ header ++ records.flatMap (·.wmf)) fuel =
      some ("Windows Metafile information:".toList, none) := by
  obtain ⟨out, hr, _⟩ := C48_wmf_records placeable header hp hh records h fuel hf
  have hs : slice (placeable ++ header ++ records.flatMap (·.wmf)) 40 44 ≠ [0x20, 0x45, 0x4d, 0x46] := by
    rwa [show " EMF".toUTF8.toList = [0x20, 0x45, 0x4d, 0x46] by decide +kernel] at hs
  have h' : (slice (placeable ++ header ++ records.flatMap (·.wmf)) 40 44 == [0x20, 0x45, 0x4d, 0x46]) = false := by
    simpa using hs
  unfold script
  rw [h', hr]
  rfl

/-- It is not if the data of a record has it there. -/
theorem C172_kind_claim_false : ¬ C172_kind_claim := by
  intro hc
  have h := hc [] [leBytes 2 1, leBytes 2 9, List.replicate 14 0].flatten
    [⟨0x0626, List.replicate 16 0 ++ [0x20, 0x45, 0x4d, 0x46]⟩, ⟨0, []⟩] 3 (Or.inl rfl)
    ⟨1, _, rfl, Or.inl rfl, by simp⟩ (by simp [Stored.WmfOk]) (by simp)
  revert h
  generalize hd : ([] ++ [leBytes 2 1, leBytes 2 9, List.replicate 14 0].flatten ++
    [(⟨0x0626, List.replicate 16 0 ++ [0x20, 0x45, 0x4d, 0x46]⟩ : Stored), ⟨0, []⟩].flatMap (·.wmf)) = data
  intro h
  have hl : data.length = 50 := by rw [← hd]; decide +kernel
  have h' : (slice data 40 44 == [0x20, 0x45, 0x4d, 0x46]) = true := by rw [← hd]; decide +kernel
  have hr : readEmf data 3 = some (.error .parseError) := by
    unfold readEmf
    rw [show (0 : Int) = ((0 : Nat) : Int) from rfl, structAt_fixed _ _ _ _ (by omega), if_pos (by omega)]
  unfold script at h
  rw [h', hr] at h
  simp at h

/-! ### The headers -/

/-- A header of an Enhanced Metafile ([MS-EMF] 2.2.9, 2.3.4.2). -/
structure EmfFields where
  type : Nat
  size : Nat
  bounds : Bytes
  signature : Nat
  version : Nat
  bytes : Nat
  records : Nat
  handles : Nat
  reserved : Nat
  description : Nat
  descriptionOffset : Nat
  rest : Bytes

def EmfFields.stored (f : EmfFields) : Bytes :=
  [leBytes 4 f.type, leBytes 4 f.size, f.bounds, leBytes 4 f.signature, leBytes 4 f.version, leBytes 4 f.bytes,
    leBytes 4 f.records, leBytes 2 f.handles, leBytes 2 f.reserved, leBytes 4 f.description, leBytes 4 f.descriptionOffset,
    f.rest].flatten

def EmfFields.Ok (f : EmfFields) : Prop :=
  f.type < 2 ^ 32 ∧ f.size < 2 ^ 32 ∧ f.bounds.length = 32 ∧ f.signature < 2 ^ 32 ∧ f.version < 2 ^ 32 ∧ f.bytes < 2 ^ 32 ∧
  f.records < 2 ^ 32 ∧ f.handles < 2 ^ 16 ∧ f.reserved < 2 ^ 16 ∧ f.description < 2 ^ 32 ∧ f.descriptionOffset < 2 ^ 32 ∧
  f.rest.length = 40

/-- A line with a number in hexadecimal. -/
def hexLine (label : String) (w n : Nat) : Str := Formats.formatValue label.toList ("0x".toList ++ Formats.hexw w n)

/-- The name of a type of record. -/
def emfName (n : Nat) : String := (emfTypes.lookup n).getD "UNKNOWN"

/-- The header of an Enhanced Metafile is shown with the values that are stored. -/
theorem C172_emf_header (f : EmfFields) (h : f.Ok) :
    f.stored.length = 108 ∧ emfFileHeader f.stored =
      namedLine "Record type" 4 f.type (emfName f.type) ++ numberLine "Record size" f.size ++
      hexLine "Signature" 4 f.signature ++ hexLine "Format version" 4 f.version ++ numberLine "File size" f.bytes ++
      numberLine "Number of records" f.records ++ numberLine "Number of handles" f.handles ++
      hexLine "Unknown (reserved)" 4 f.reserved ++ numberLine "Description string size" f.description ++
      hexLine "Description string offset" 4 f.descriptionOffset ++ ['\n'] := by
  obtain ⟨h1, h2, h3, h4, h5, h6, h7, h8, h9, h10, h11, h12⟩ := h
  refine ⟨by simp [EmfFields.stored, h3, h12], ?_⟩
  have f1 : num f.stored 0 4 = f.type := leField [] 4 _ _ 0 4 rfl rfl h1
  have f2 : num f.stored 4 8 = f.size := leField [leBytes 4 f.type] 4 _ _ 4 8 (by simp) rfl h2
  have f4 : num f.stored 40 44 = f.signature :=
    leField [leBytes 4 f.type, leBytes 4 f.size, f.bounds] 4 _ _ _ _ (by simp [h3]) rfl h4
  have f5 : num f.stored 44 48 = f.version :=
    leField [leBytes 4 f.type, leBytes 4 f.size, f.bounds, leBytes 4 f.signature] 4 _ _ _ _ (by simp [h3]) rfl h5
  have f6 : num f.stored 48 52 = f.bytes :=
    leField [leBytes 4 f.type, leBytes 4 f.size, f.bounds, leBytes 4 f.signature, leBytes 4 f.version] 4 _ _ _ _
      (by simp [h3]) rfl h6
  have f7 : num f.stored 52 56 = f.records :=
    leField [leBytes 4 f.type, leBytes 4 f.size, f.bounds, leBytes 4 f.signature, leBytes 4 f.version, leBytes 4 f.bytes]
      4 _ _ _ _ (by simp [h3]) rfl h7
  have f8 : num f.stored 56 58 = f.handles :=
    leField [leBytes 4 f.type, leBytes 4 f.size, f.bounds, leBytes 4 f.signature, leBytes 4 f.version, leBytes 4 f.bytes,
      leBytes 4 f.records] 2 _ _ _ _ (by simp [h3]) rfl h8
  have f9 : num f.stored 58 60 = f.reserved :=
    leField [leBytes 4 f.type, leBytes 4 f.size, f.bounds, leBytes 4 f.signature, leBytes 4 f.version, leBytes 4 f.bytes,
      leBytes 4 f.records, leBytes 2 f.handles] 2 _ _ _ _ (by simp [h3]) rfl h9
  have f10 : num f.stored 60 64 = f.description :=
    leField [leBytes 4 f.type, leBytes 4 f.size, f.bounds, leBytes 4 f.signature, leBytes 4 f.version, leBytes 4 f.bytes,
      leBytes 4 f.records, leBytes 2 f.handles, leBytes 2 f.reserved] 4 _ _ _ _ (by simp [h3]) rfl h10
  have f11 : num f.stored 64 68 = f.descriptionOffset :=
    leField [leBytes 4 f.type, leBytes 4 f.size, f.bounds, leBytes 4 f.signature, leBytes 4 f.version, leBytes 4 f.bytes,
      leBytes 4 f.records, leBytes 2 f.handles, leBytes 2 f.reserved, leBytes 4 f.description] 4 _ _ _ _ (by simp [h3]) rfl h11
  have hn : nameOf emfTypes f.type = (emfName f.type).toList := by
    unfold nameOf emfName
    cases emfTypes.lookup f.type <;> rfl
  have c : ∀ n : Nat, Formats.decInt n = digits 10 n := by
    intro n
    unfold Formats.decInt
    rw [if_neg (by omega)]
    rfl
  unfold emfFileHeader numberLine
  rw [f1, f2, f4, f5, f6, f7, f8, f9, f10, f11]
  simp only [c]
  unfold named
  rw [hn]
  rfl

/-- A header of a Windows Metafile ([MS-WMF] 2.3.2.2). -/
structure WmfFields where
  type : Nat
  version : Nat
  sizeLow : Nat
  sizeHigh : Nat
  objects : Nat
  largest : Nat
  members : Nat

def WmfFields.stored (f : WmfFields) : Bytes :=
  [leBytes 2 f.type, leBytes 2 9, leBytes 2 f.version, leBytes 2 f.sizeLow, leBytes 2 f.sizeHigh, leBytes 2 f.objects,
    leBytes 4 f.largest, leBytes 2 f.members].flatten

def WmfFields.Ok (f : WmfFields) : Prop :=
  (f.type = 1 ∨ f.type = 2) ∧ f.version < 2 ^ 16 ∧ f.sizeLow < 2 ^ 16 ∧ f.sizeHigh < 2 ^ 16 ∧ f.objects < 2 ^ 16 ∧
  f.largest < 2 ^ 32 ∧ f.members < 2 ^ 16

/-- The header of a Windows Metafile is shown with the values that are stored. -/
theorem C172_wmf_header (f : WmfFields) (h : f.Ok) :
    WmfHeader f.stored ∧ wmfHeaderText f.stored =
      hexLine "File type" 4 f.type ++ numberLine "Record size" 9 ++ numberLine "Format version" f.version ++
      numberLine "File size lower" f.sizeLow ++ numberLine "File size upper" f.sizeHigh ++
      numberLine "Maximum number of object" f.objects ++ numberLine "Largest record size" f.largest ++
      numberLine "Number of records" f.members ++ ['\n'] := by
  obtain ⟨h1, h3, h4, h5, h6, h7, h8⟩ := h
  refine ⟨⟨f.type, [leBytes 2 f.version, leBytes 2 f.sizeLow, leBytes 2 f.sizeHigh, leBytes 2 f.objects,
    leBytes 4 f.largest, leBytes 2 f.members].flatten, by simp [WmfFields.stored], h1, by simp⟩, ?_⟩
  have f1 : num f.stored 0 2 = f.type := leField [] 2 _ _ 0 2 rfl rfl (by omega)
  have f2 : num f.stored 2 4 = 9 := leField [leBytes 2 f.type] 2 _ _ 2 4 (by simp) rfl (by omega)
  have f3 : num f.stored 4 6 = f.version := leField [leBytes 2 f.type, leBytes 2 9] 2 _ _ _ _ (by simp) rfl h3
  have f4 : num f.stored 6 8 = f.sizeLow :=
    leField [leBytes 2 f.type, leBytes 2 9, leBytes 2 f.version] 2 _ _ _ _ (by simp) rfl h4
  have f5 : num f.stored 8 10 = f.sizeHigh :=
    leField [leBytes 2 f.type, leBytes 2 9, leBytes 2 f.version, leBytes 2 f.sizeLow] 2 _ _ _ _ (by simp) rfl h5
  have f6 : num f.stored 10 12 = f.objects :=
    leField [leBytes 2 f.type, leBytes 2 9, leBytes 2 f.version, leBytes 2 f.sizeLow, leBytes 2 f.sizeHigh] 2 _ _ _ _
      (by simp) rfl h6
  have f7 : num f.stored 12 16 = f.largest :=
    leField [leBytes 2 f.type, leBytes 2 9, leBytes 2 f.version, leBytes 2 f.sizeLow, leBytes 2 f.sizeHigh,
      leBytes 2 f.objects] 4 _ _ _ _ (by simp) rfl h7
  have f8 : num f.stored 16 18 = f.members :=
    leField [leBytes 2 f.type, leBytes 2 9, leBytes 2 f.version, leBytes 2 f.sizeLow, leBytes 2 f.sizeHigh,
      leBytes 2 f.objects, leBytes 4 f.largest] 2 _ _ _ _ (by simp) rfl h8
  have c : ∀ n : Nat, Formats.decInt n = digits 10 n := by
    intro n
    unfold Formats.decInt
    rw [if_neg (by omega)]
    rfl
  unfold wmfHeaderText numberLine
  rw [f1, f2, f3, f4, f5, f6, f7, f8, show (9 : Int) = ((9 : Nat) : Int) from rfl]
  simp only [c]
  rfl

/-- A placeable ([MS-WMF] 2.3.2.3). -/
theorem C172_placeable (handle inch reserved checksum : Nat) (box : Bytes) (h1 : handle < 2 ^ 16) (h2 : box.length = 8)
    (h3 : inch < 2 ^ 16) (h4 : reserved < 2 ^ 32) (h5 : checksum < 2 ^ 16) (b : Bytes)
    (hb : b = [placeableKey, leBytes 2 handle, box, leBytes 2 inch, leBytes 4 reserved, leBytes 2 checksum].flatten) :
    Placeable b ∧ placeableText b =
      hexLine "Signature" 8 0x9ac6cdd7 ++ hexLine "Resource handle" 4 handle ++
      Formats.dataText "Bounding box".toList box ++ numberLine "Number of units per inch" inch ++
      hexLine "Unknown1" 8 reserved ++ hexLine "Checksum" 4 checksum ++ ['\n'] := by
  refine ⟨Or.inr ⟨[leBytes 2 handle, box, leBytes 2 inch, leBytes 4 reserved, leBytes 2 checksum].flatten,
    by simp [hb], by simp [h2]⟩, ?_⟩
  have k : placeableKey.length = 4 := by decide
  have f1 : num b 0 4 = 0x9ac6cdd7 := by rw [hb]; exact leField [] 4 _ _ 0 4 rfl rfl (by omega)
  have f2 : num b 4 6 = handle := by rw [hb]; exact leField [placeableKey] 2 _ _ 4 6 (by simp [k]) rfl h1
  have f3 : slice b 6 14 = box := by
    rw [hb]; exact slice_fields [placeableKey, leBytes 2 handle] box _ _ _ (by simp [k]) (by rw [h2])
  have f4 : num b 14 16 = inch := by
    rw [hb]; exact leField [placeableKey, leBytes 2 handle, box] 2 _ _ _ _ (by simp [k, h2]) rfl h3
  have f5 : num b 16 20 = reserved := by
    rw [hb]; exact leField [placeableKey, leBytes 2 handle, box, leBytes 2 inch] 4 _ _ _ _ (by simp [k, h2]) rfl h4
  have f6 : num b 20 22 = checksum := by
    rw [hb]
    exact leField [placeableKey, leBytes 2 handle, box, leBytes 2 inch, leBytes 4 reserved] 2 _ _ _ _ (by simp [k, h2]) rfl h5
  have c : ∀ n : Nat, Formats.decInt n = digits 10 n := by
    intro n
    unfold Formats.decInt
    rw [if_neg (by omega)]
    rfl
  unfold placeableText numberLine
  rw [f1, f2, f3, f4, f5, f6, c]
  rfl

/-- The name of a type of record of a Windows Metafile. -/
def wmfName (n : Nat) : String := (wmfTypes.lookup n).getD "UNKNOWN"

/-- The header of a record is shown with its type and its size, which is in 16-bit words and in bytes for Windows
Metafiles. -/
theorem C172_record (type words size : Nat) :
    emfRecordHeader type size = namedLine "Record type" 4 type (emfName type) ++ numberLine "Record size" size ++ ['\n'] ∧
    wmfRecordHeader type (2 * words) = Formats.formatValue "Record size".toList (Formats.decInt words ++ " (".toList ++
      Formats.decInt (words * 2) ++ " bytes)".toList) ++ namedLine "Record type" 4 type (wmfName type) ++ ['\n'] := by
  have hn : nameOf emfTypes type = (emfName type).toList := by
    unfold nameOf emfName
    cases emfTypes.lookup type <;> rfl
  have hw : nameOf wmfTypes type = (wmfName type).toList := by
    unfold nameOf wmfName
    cases wmfTypes.lookup type <;> rfl
  have c : ∀ n : Nat, Formats.decInt n = digits 10 n := by
    intro n
    unfold Formats.decInt
    rw [if_neg (by omega)]
    rfl
  constructor
  · unfold emfRecordHeader numberLine named
    rw [hn, c]
    rfl
  · unfold wmfRecordHeader named
    rw [hw, c, show ((words : Int) * 2) = ((2 * words : Nat) : Int) by omega, c, Nat.mul_div_cancel_left _ (by omega)]
    rfl

/-- The values of a Windows Metafile of a placeable and three records, the last but one of which stretches a bitmap. -/
example : ∃ t, debugWmf ((placeableKey ++ List.replicate 18 0) ++ (⟨1, 0x300, 50, 0, 0, 14, 0⟩ : WmfFields).stored ++
    [(⟨0x103, [8, 0]⟩ : Stored), ⟨0xb41, stretchData 0xcc0020 16 16 0 0 16 16 (-1) 4⟩, ⟨0, []⟩].flatMap (·.wmf)) 4 =
      some (t, none) :=
  C172_debug_wmf_partial _ _ (Or.inr ⟨_, rfl, by simp⟩) (C172_wmf_header _ (by simp [WmfFields.Ok])).1 _
    (by
      intro r hr
      simp only [List.mem_cons, List.not_mem_nil, or_false] at hr
      rcases hr with rfl | rfl | rfl <;> simp [Stored.WmfOk, wmfNeeds, stretchData, int16_length]) 4 (by simp)

example : rasterName 0xcc0020 = "SRCCOPY" ∧ index "SRCCOPY" = some 0xcc ∧ index "DPSOO" = some 0xfe ∧
    rasterName 0x10289 = "DPSOO" := by decide +kernel

/-- A header of an Enhanced Metafile. -/
example : (⟨1, 108, List.replicate 32 0, 0x464d4520, 0x10000, 200, 5, 2, 0, 0, 0, List.replicate 40 0⟩ : EmfFields).Ok := by
  simp [EmfFields.Ok]

/-- A record that shows what follows it: its data is 4 bytes, those shown are 12. -/
example : shownData 108 ⟨0x25, [0, 0, 0, 0x80]⟩ [14, 0, 0, 0, 8, 0, 0, 0] =
    [0, 0, 0, 0x80, 14, 0, 0, 0, 8, 0, 0, 0] := by decide

end Dtf.Wemf
