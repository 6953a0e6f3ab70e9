import Verif.Base
/-
  The table of small primes of src/kryptos_mp.c.
-/
namespace Kryptos.Mp

set_option maxRecDepth 20000 in
/-- `g_kryptos_mp_small_primes` (src/kryptos_mp.c:75-213), in rows: the entry "ABCD" of the table is written `0xABCD`. -/
def smallPrimeRows : List (List Nat) := [
  [0x0003, 0x0005, 0x0007, 0x000B, 0x000D, 0x0011, 0x0013, 0x0017, 0x001D, 0x001F, 0x0025, 0x0029, 0x002B, 0x002F, 0x0035],
  [0x003B, 0x003D, 0x0043, 0x0047, 0x0049, 0x004F, 0x0053, 0x0059, 0x0061, 0x0065, 0x0067, 0x006B, 0x006D, 0x0071, 0x007F],
  [0x0083, 0x0089, 0x008B, 0x0095, 0x0097, 0x009D, 0x00A3, 0x00A7, 0x00AD, 0x00B3, 0x00B5, 0x00BF, 0x00C1, 0x00C5, 0x00C7],
  [0x00D3, 0x00DF, 0x00E3, 0x00E5, 0x00E9, 0x00EF, 0x00F1, 0x00FB, 0x0101, 0x0107, 0x010D, 0x010F, 0x0115, 0x0119, 0x011B],
  [0x0125, 0x0133, 0x0137, 0x0139, 0x013D, 0x014B, 0x0151, 0x015B, 0x015D, 0x0161, 0x0167, 0x016F, 0x0175, 0x017B, 0x017F],
  [0x0185, 0x018D, 0x0191, 0x0199, 0x01A3, 0x01A5, 0x01AF, 0x01B1, 0x01B7, 0x01BB, 0x01C1, 0x01C9, 0x01CD, 0x01CF, 0x01D3],
  [0x01DF, 0x01E7, 0x01EB, 0x01F3, 0x01F7, 0x01FD, 0x0209, 0x020B, 0x021D, 0x0223, 0x022D, 0x0233, 0x0239, 0x023B, 0x0241],
  [0x024B, 0x0251, 0x0257, 0x0259, 0x025F, 0x0265, 0x0269, 0x026B, 0x0277, 0x0281, 0x0283, 0x0287, 0x028D, 0x0293, 0x0295],
  [0x02A1, 0x02A5, 0x02AB, 0x02B3, 0x02BD, 0x02C5, 0x02CF, 0x02D7, 0x02DD, 0x02E3, 0x02E7, 0x02EF, 0x02F5, 0x02F9, 0x0301],
  [0x0305, 0x0313, 0x031D, 0x0329, 0x032B, 0x0335, 0x0337, 0x033B, 0x033D, 0x0347, 0x0355, 0x0359, 0x035B, 0x035F, 0x036D],
  [0x0371, 0x0373, 0x0377, 0x038B, 0x038F, 0x0397, 0x03A1, 0x03A9, 0x03AD, 0x03B3, 0x03B9, 0x03C7, 0x03CB, 0x03D1, 0x03D7],
  [0x03DF, 0x03E5, 0x03F1, 0x03F5, 0x03FB, 0x03FD, 0x0407, 0x0409, 0x040F, 0x0419, 0x041B, 0x0425, 0x0427, 0x042D, 0x043F],
  [0x0443, 0x0445, 0x0449, 0x044F, 0x0455, 0x045D, 0x0463, 0x0469, 0x047F, 0x0481, 0x048B, 0x0493, 0x049D, 0x04A3, 0x04A9],
  [0x04B1, 0x04BD, 0x04C1, 0x04C7, 0x04CD, 0x04CF, 0x04D5, 0x04E1, 0x04EB, 0x04FD, 0x04FF, 0x0503, 0x0509, 0x050B, 0x0511],
  [0x0515, 0x0517, 0x051B, 0x0527, 0x0529, 0x052F, 0x0551, 0x0557, 0x055D, 0x0565, 0x0577, 0x0581, 0x058F, 0x0593, 0x0595],
  [0x0599, 0x059F, 0x05A7, 0x05AB, 0x05AD, 0x05B3, 0x05BF, 0x05C9, 0x05CB, 0x05CF, 0x05D1, 0x05D5, 0x05DB, 0x05E7, 0x05F3],
  [0x05FB, 0x0607, 0x060D, 0x0611, 0x0617, 0x061F, 0x0623, 0x062B, 0x062F, 0x063D, 0x0641, 0x0647, 0x0649, 0x064D, 0x0653],
  [0x0655, 0x065B, 0x0665, 0x0679, 0x067F, 0x0683, 0x0685, 0x069D, 0x06A1, 0x06A3, 0x06AD, 0x06B9, 0x06BB, 0x06C5, 0x06CD],
  [0x06D3, 0x06D9, 0x06DF, 0x06F1, 0x06F7, 0x06FB, 0x06FD, 0x0709, 0x0713, 0x071F, 0x0727, 0x0737, 0x0745, 0x074B, 0x074F],
  [0x0751, 0x0755, 0x0757, 0x0761, 0x076D, 0x0773, 0x0779, 0x078B, 0x078D, 0x079D, 0x079F, 0x07B5, 0x07BB, 0x07C3, 0x07C9],
  [0x07CD, 0x07CF, 0x07D3, 0x07DB, 0x07E1, 0x07EB, 0x07ED, 0x07F7, 0x0805, 0x080F, 0x0815, 0x0821, 0x0823, 0x0827, 0x0829],
  [0x0833, 0x083F, 0x0841, 0x0851, 0x0853, 0x0859, 0x085D, 0x085F, 0x0869, 0x0871, 0x0883, 0x089B, 0x089F, 0x08A5, 0x08AD],
  [0x08BD, 0x08BF, 0x08C3, 0x08CB, 0x08DB, 0x08DD, 0x08E1, 0x08E9, 0x08EF, 0x08F5, 0x08F9, 0x0905, 0x0907, 0x091D, 0x0923],
  [0x0925, 0x092B, 0x092F, 0x0935, 0x0943, 0x0949, 0x094D, 0x094F, 0x0955, 0x0959, 0x095F, 0x096B, 0x0971, 0x0977, 0x0985],
  [0x0989, 0x098F, 0x099B, 0x09A3, 0x09A9, 0x09AD, 0x09C7, 0x09D9, 0x09E3, 0x09EB, 0x09EF, 0x09F5, 0x09F7, 0x09FD, 0x0A13],
  [0x0A1F, 0x0A21, 0x0A31, 0x0A39, 0x0A3D, 0x0A49, 0x0A57, 0x0A61, 0x0A63, 0x0A67, 0x0A6F, 0x0A75, 0x0A7B, 0x0A7F, 0x0A81],
  [0x0A85, 0x0A8B, 0x0A93, 0x0A97, 0x0A99, 0x0A9F, 0x0AA9, 0x0AAB, 0x0AB5, 0x0ABD, 0x0AC1, 0x0ACF, 0x0AD9, 0x0AE5, 0x0AE7],
  [0x0AED, 0x0AF1, 0x0AF3, 0x0B03, 0x0B11, 0x0B15, 0x0B1B, 0x0B23, 0x0B29, 0x0B2D, 0x0B3F, 0x0B47, 0x0B51, 0x0B57, 0x0B5D],
  [0x0B65, 0x0B6F, 0x0B7B, 0x0B89, 0x0B8D, 0x0B93, 0x0B99, 0x0B9B, 0x0BB7, 0x0BB9, 0x0BC3, 0x0BCB, 0x0BCF, 0x0BDD, 0x0BE1],
  [0x0BE9, 0x0BF5, 0x0BFB, 0x0C07, 0x0C0B, 0x0C11, 0x0C25, 0x0C2F, 0x0C31, 0x0C41, 0x0C5B, 0x0C5F, 0x0C61, 0x0C6D, 0x0C73],
  [0x0C77, 0x0C83, 0x0C89, 0x0C91, 0x0C95, 0x0C9D, 0x0CB3, 0x0CB5, 0x0CB9, 0x0CBB, 0x0CC7, 0x0CE3, 0x0CE5, 0x0CEB, 0x0CF1],
  [0x0CF7, 0x0CFB, 0x0D01, 0x0D03, 0x0D0F, 0x0D13, 0x0D1F, 0x0D21, 0x0D2B, 0x0D2D, 0x0D3D, 0x0D3F, 0x0D4F, 0x0D55, 0x0D69],
  [0x0D79, 0x0D81, 0x0D85, 0x0D87, 0x0D8B, 0x0D8D, 0x0DA3, 0x0DAB, 0x0DB7, 0x0DBD, 0x0DC7, 0x0DC9, 0x0DCD, 0x0DD3, 0x0DD5],
  [0x0DDB, 0x0DE5, 0x0DE7, 0x0DF3, 0x0DFD, 0x0DFF, 0x0E09, 0x0E17, 0x0E1D, 0x0E21, 0x0E27, 0x0E2F, 0x0E35, 0x0E3B, 0x0E4B],
  [0x0E57, 0x0E59, 0x0E5D, 0x0E6B, 0x0E71, 0x0E75, 0x0E7D, 0x0E87, 0x0E8F, 0x0E95, 0x0E9B, 0x0EB1, 0x0EB7, 0x0EB9, 0x0EC3],
  [0x0ED1, 0x0ED5, 0x0EDB, 0x0EED, 0x0EEF, 0x0EF9, 0x0F07, 0x0F0B, 0x0F0D, 0x0F17, 0x0F25, 0x0F29, 0x0F31, 0x0F43, 0x0F47],
  [0x0F4D, 0x0F4F, 0x0F53, 0x0F59, 0x0F5B, 0x0F67, 0x0F6B, 0x0F7F, 0x0F95, 0x0FA1, 0x0FA3, 0x0FA7, 0x0FAD, 0x0FB3, 0x0FB5],
  [0x0FBB, 0x0FD1, 0x0FD3, 0x0FD9, 0x0FE9, 0x0FEF, 0x0FFB, 0x0FFD, 0x1003, 0x100F, 0x101F, 0x1021, 0x1025, 0x102B, 0x1039],
  [0x103D, 0x103F, 0x1051, 0x1069, 0x1073, 0x1079, 0x107B, 0x1085, 0x1087, 0x1091, 0x1093, 0x109D, 0x10A3, 0x10A5, 0x10AF],
  [0x10B1, 0x10BB, 0x10C1, 0x10C9, 0x10E7, 0x10F1, 0x10F3, 0x10FD, 0x1105, 0x110B, 0x1115, 0x1127, 0x112D, 0x1139, 0x1145],
  [0x1147, 0x1159, 0x115F, 0x1163, 0x1169, 0x116F, 0x1181, 0x1183, 0x118D, 0x119B, 0x11A1, 0x11A5, 0x11A7, 0x11AB, 0x11C3],
  [0x11C5, 0x11D1, 0x11D7, 0x11E7, 0x11EF, 0x11F5, 0x11FB, 0x120D, 0x121D, 0x121F, 0x1223, 0x1229, 0x122B, 0x1231, 0x1237],
  [0x1241, 0x1247, 0x1253, 0x125F, 0x1271, 0x1273, 0x1279, 0x127D, 0x128F, 0x1297, 0x12AF, 0x12B3, 0x12B5, 0x12B9, 0x12BF],
  [0x12C1, 0x12CD, 0x12D1, 0x12DF, 0x12FD, 0x1307, 0x130D, 0x1319, 0x1327, 0x132D, 0x1337, 0x1343, 0x1345, 0x1349, 0x134F],
  [0x1357, 0x135D, 0x1367, 0x1369, 0x136D, 0x137B, 0x1381, 0x1387, 0x138B, 0x1391, 0x1393, 0x139D, 0x139F, 0x13AF, 0x13BB],
  [0x13C3, 0x13D5, 0x13D9, 0x13DF, 0x13EB, 0x13ED, 0x13F3, 0x13F9, 0x13FF, 0x141B, 0x1421, 0x142F, 0x1433, 0x143B, 0x1445],
  [0x144D, 0x1459, 0x146B, 0x146F, 0x1471, 0x1475, 0x148D, 0x1499, 0x149F, 0x14A1, 0x14B1, 0x14B7, 0x14BD, 0x14CB, 0x14D5],
  [0x14E3, 0x14E7, 0x1505, 0x150B, 0x1511, 0x1517, 0x151F, 0x1525, 0x1529, 0x152B, 0x1537, 0x153D, 0x1541, 0x1543, 0x1549],
  [0x155F, 0x1565, 0x1567, 0x156B, 0x157D, 0x157F, 0x1583, 0x158F, 0x1591, 0x1597, 0x159B, 0x15B5, 0x15BB, 0x15C1, 0x15C5],
  [0x15CD, 0x15D7, 0x15F7, 0x1607, 0x1609, 0x160F, 0x1613, 0x1615, 0x1619, 0x161B, 0x1625, 0x1633, 0x1639, 0x163D, 0x1645],
  [0x164F, 0x1655, 0x1669, 0x166D, 0x166F, 0x1675, 0x1693, 0x1697, 0x169F, 0x16A9, 0x16AF, 0x16B5, 0x16BD, 0x16C3, 0x16CF],
  [0x16D3, 0x16D9, 0x16DB, 0x16E1, 0x16E5, 0x16EB, 0x16ED, 0x16F7, 0x16F9, 0x1709, 0x170F, 0x1723, 0x1727, 0x1733, 0x1741],
  [0x175D, 0x1763, 0x1777, 0x177B, 0x178D, 0x1795, 0x179B, 0x179F, 0x17A5, 0x17B3, 0x17B9, 0x17BF, 0x17C9, 0x17CB, 0x17D5],
  [0x17E1, 0x17E9, 0x17F3, 0x17F5, 0x17FF, 0x1807, 0x1813, 0x181D, 0x1835, 0x1837, 0x183B, 0x1843, 0x1849, 0x184D, 0x1855],
  [0x1867, 0x1871, 0x1877, 0x187D, 0x187F, 0x1885, 0x188F, 0x189B, 0x189D, 0x18A7, 0x18AD, 0x18B3, 0x18B9, 0x18C1, 0x18C7],
  [0x18D1, 0x18D7, 0x18D9, 0x18DF, 0x18E5, 0x18EB, 0x18F5, 0x18FD, 0x1915, 0x191B, 0x1931, 0x1933, 0x1945, 0x1949, 0x1951],
  [0x195B, 0x1979, 0x1981, 0x1993, 0x1997, 0x1999, 0x19A3, 0x19A9, 0x19AB, 0x19B1, 0x19B5, 0x19C7, 0x19CF, 0x19DB, 0x19ED],
  [0x19FD, 0x1A03, 0x1A05, 0x1A11, 0x1A17, 0x1A21, 0x1A23, 0x1A2D, 0x1A2F, 0x1A35, 0x1A3F, 0x1A4D, 0x1A51, 0x1A69, 0x1A6B],
  [0x1A7B, 0x1A7D, 0x1A87, 0x1A89, 0x1A93, 0x1AA7, 0x1AAB, 0x1AAD, 0x1AB1, 0x1AB9, 0x1AC9, 0x1ACF, 0x1AD5, 0x1AD7, 0x1AE3],
  [0x1AF3, 0x1AFB, 0x1AFF, 0x1B05, 0x1B23, 0x1B25, 0x1B2F, 0x1B31, 0x1B37, 0x1B3B, 0x1B41, 0x1B47, 0x1B4F, 0x1B55, 0x1B59],
  [0x1B65, 0x1B6B, 0x1B73, 0x1B7F, 0x1B83, 0x1B91, 0x1B9D, 0x1BA7, 0x1BBF, 0x1BC5, 0x1BD1, 0x1BD7, 0x1BD9, 0x1BEF, 0x1BF7],
  [0x1C09, 0x1C13, 0x1C19, 0x1C27, 0x1C2B, 0x1C2D, 0x1C33, 0x1C3D, 0x1C45, 0x1C4B, 0x1C4F, 0x1C55, 0x1C73, 0x1C81, 0x1C8B],
  [0x1C8D, 0x1C99, 0x1CA3, 0x1CA5, 0x1CB5, 0x1CB7, 0x1CC9, 0x1CE1, 0x1CF3, 0x1CF9, 0x1D09, 0x1D1B, 0x1D21, 0x1D23, 0x1D35],
  [0x1D39, 0x1D3F, 0x1D41, 0x1D4B, 0x1D53, 0x1D5D, 0x1D63, 0x1D69, 0x1D71, 0x1D75, 0x1D7B, 0x1D7D, 0x1D87, 0x1D89, 0x1D95],
  [0x1D99, 0x1D9F, 0x1DA5, 0x1DA7, 0x1DB3, 0x1DB7, 0x1DC5, 0x1DD7, 0x1DDB, 0x1DE1, 0x1DF5, 0x1DF9, 0x1E01, 0x1E07, 0x1E0B],
  [0x1E13, 0x1E17, 0x1E25, 0x1E2B, 0x1E2F, 0x1E3D, 0x1E49, 0x1E4D, 0x1E4F, 0x1E6D, 0x1E71, 0x1E89, 0x1E8F, 0x1E95, 0x1EA1],
  [0x1EAD, 0x1EBB, 0x1EC1, 0x1EC5, 0x1EC7, 0x1ECB, 0x1EDD, 0x1EE3, 0x1EEF, 0x1EF7, 0x1EFD, 0x1F01, 0x1F0D, 0x1F0F, 0x1F1B],
  [0x1F39, 0x1F49, 0x1F4B, 0x1F51, 0x1F67, 0x1F75, 0x1F7B, 0x1F85, 0x1F91, 0x1F97, 0x1F99, 0x1F9D, 0x1FA5, 0x1FAF, 0x1FB5],
  [0x1FBB, 0x1FD3, 0x1FE1, 0x1FE7, 0x1FEB, 0x1FF3, 0x1FFF, 0x2011, 0x201B, 0x201D, 0x2027, 0x2029, 0x202D, 0x2033, 0x2047],
  [0x204D, 0x2051, 0x205F, 0x2063, 0x2065, 0x2069, 0x2077, 0x207D, 0x2089, 0x20A1, 0x20AB, 0x20B1, 0x20B9, 0x20C3, 0x20C5],
  [0x20E3, 0x20E7, 0x20ED, 0x20EF, 0x20FB, 0x20FF, 0x210D, 0x2113, 0x2135, 0x2141, 0x2149, 0x214F, 0x2159, 0x215B, 0x215F],
  [0x2173, 0x217D, 0x2185, 0x2195, 0x2197, 0x21A1, 0x21AF, 0x21B3, 0x21B5, 0x21C1, 0x21C7, 0x21D7, 0x21DD, 0x21E5, 0x21E9],
  [0x21F1, 0x21F5, 0x21FB, 0x2203, 0x2209, 0x220F, 0x221B, 0x2221, 0x2225, 0x222B, 0x2231, 0x2239, 0x224B, 0x224F, 0x2263],
  [0x2267, 0x2273, 0x2275, 0x227F, 0x2285, 0x2287, 0x2291, 0x229D, 0x229F, 0x22A3, 0x22B7, 0x22BD, 0x22DB, 0x22E1, 0x22E5],
  [0x22ED, 0x22F7, 0x2303, 0x2309, 0x230B, 0x2327, 0x2329, 0x232F, 0x2333, 0x2335, 0x2345, 0x2351, 0x2353, 0x2359, 0x2363],
  [0x236B, 0x2383, 0x238F, 0x2395, 0x23A7, 0x23AD, 0x23B1, 0x23BF, 0x23C5, 0x23C9, 0x23D5, 0x23DD, 0x23E3, 0x23EF, 0x23F3],
  [0x23F9, 0x2405, 0x240B, 0x2417, 0x2419, 0x2429, 0x243D, 0x2441, 0x2443, 0x244D, 0x245F, 0x2467, 0x246B, 0x2479, 0x247D],
  [0x247F, 0x2485, 0x249B, 0x24A1, 0x24AF, 0x24B5, 0x24BB, 0x24C5, 0x24CB, 0x24CD, 0x24D7, 0x24D9, 0x24DD, 0x24DF, 0x24F5],
  [0x24F7, 0x24FB, 0x2501, 0x2507, 0x2513, 0x2519, 0x2527, 0x2531, 0x253D, 0x2543, 0x254B, 0x254F, 0x2573, 0x2581, 0x258D],
  [0x2593, 0x2597, 0x259D, 0x259F, 0x25AB, 0x25B1, 0x25BD, 0x25CD, 0x25CF, 0x25D9, 0x25E1, 0x25F7, 0x25F9, 0x2605, 0x260B],
  [0x260F, 0x2615, 0x2627, 0x2629, 0x2635, 0x263B, 0x263F, 0x264B, 0x2653, 0x2659, 0x2665, 0x2669, 0x266F, 0x267B, 0x2681],
  [0x2683, 0x268F, 0x269B, 0x269F, 0x26AD, 0x26B3, 0x26C3, 0x26C9, 0x26CB, 0x26D5, 0x26DD, 0x26EF, 0x26F5, 0x2717, 0x2719],
  [0x2735, 0x2737, 0x274D, 0x2753, 0x2755, 0x275F, 0x276B, 0x276D, 0x2773, 0x2777, 0x277F, 0x2795, 0x279B, 0x279D, 0x27A7],
  [0x27AF, 0x27B3, 0x27B9, 0x27C1, 0x27C5, 0x27D1, 0x27E3, 0x27EF, 0x2803, 0x2807, 0x280D, 0x2813, 0x281B, 0x281F, 0x2821],
  [0x2831, 0x283D, 0x283F, 0x2849, 0x2851, 0x285B, 0x285D, 0x2861, 0x2867, 0x2875, 0x2881, 0x2897, 0x289F, 0x28BB, 0x28BD],
  [0x28C1, 0x28D5, 0x28D9, 0x28DB, 0x28DF, 0x28ED, 0x28F7, 0x2903, 0x2905, 0x2911, 0x2921, 0x2923, 0x293F, 0x2947, 0x295D],
  [0x2965, 0x2969, 0x296F, 0x2975, 0x2983, 0x2987, 0x298F, 0x299B, 0x29A1, 0x29A7, 0x29AB, 0x29BF, 0x29C3, 0x29D5, 0x29D7],
  [0x29E3, 0x29E9, 0x29ED, 0x29F3, 0x2A01, 0x2A13, 0x2A1D, 0x2A25, 0x2A2F, 0x2A4F, 0x2A55, 0x2A5F, 0x2A65, 0x2A6B, 0x2A6D],
  [0x2A73, 0x2A83, 0x2A89, 0x2A8B, 0x2A97, 0x2A9D, 0x2AB9, 0x2ABB, 0x2AC5, 0x2ACD, 0x2ADD, 0x2AE3, 0x2AEB, 0x2AF1, 0x2AFB],
  [0x2B13, 0x2B27, 0x2B31, 0x2B33, 0x2B3D, 0x2B3F, 0x2B4B, 0x2B4F, 0x2B55, 0x2B69, 0x2B6D, 0x2B6F, 0x2B7B, 0x2B8D, 0x2B97],
  [0x2B99, 0x2BA3, 0x2BA5, 0x2BA9, 0x2BBD, 0x2BCD, 0x2BE7, 0x2BEB, 0x2BF3, 0x2BF9, 0x2BFD, 0x2C09, 0x2C0F, 0x2C17, 0x2C23],
  [0x2C2F, 0x2C35, 0x2C39, 0x2C41, 0x2C57, 0x2C59, 0x2C69, 0x2C77, 0x2C81, 0x2C87, 0x2C93, 0x2C9F, 0x2CAD, 0x2CB3, 0x2CB7],
  [0x2CCB, 0x2CCF, 0x2CDB, 0x2CE1, 0x2CE3, 0x2CE9, 0x2CEF, 0x2CFF, 0x2D07, 0x2D1D, 0x2D1F, 0x2D3B, 0x2D43, 0x2D49, 0x2D4D],
  [0x2D61, 0x2D65, 0x2D71, 0x2D89, 0x2D9D, 0x2DA1, 0x2DA9, 0x2DB3, 0x2DB5, 0x2DC5, 0x2DC7, 0x2DD3, 0x2DDF, 0x2E01, 0x2E03],
  [0x2E07, 0x2E0D, 0x2E19, 0x2E1F, 0x2E25, 0x2E2D, 0x2E33, 0x2E37, 0x2E39, 0x2E3F, 0x2E57, 0x2E5B, 0x2E6F, 0x2E79, 0x2E7F],
  [0x2E85, 0x2E93, 0x2E97, 0x2E9D, 0x2EA3, 0x2EA5, 0x2EB1, 0x2EB7, 0x2EC1, 0x2EC3, 0x2ECD, 0x2ED3, 0x2EE7, 0x2EEB, 0x2F05],
  [0x2F09, 0x2F0B, 0x2F11, 0x2F27, 0x2F29, 0x2F41, 0x2F45, 0x2F4B, 0x2F4D, 0x2F51, 0x2F57, 0x2F6F, 0x2F75, 0x2F7D, 0x2F81],
  [0x2F83, 0x2FA5, 0x2FAB, 0x2FB3, 0x2FC3, 0x2FCF, 0x2FD1, 0x2FDB, 0x2FDD, 0x2FE7, 0x2FED, 0x2FF5, 0x2FF9, 0x3001, 0x300D],
  [0x3023, 0x3029, 0x3037, 0x303B, 0x3055, 0x3059, 0x305B, 0x3067, 0x3071, 0x3079, 0x307D, 0x3085, 0x3091, 0x3095, 0x30A3],
  [0x30A9, 0x30B9, 0x30BF, 0x30C7, 0x30CB, 0x30D1, 0x30D7, 0x30DF, 0x30E5, 0x30EF, 0x30FB, 0x30FD, 0x3103, 0x3109, 0x3119],
  [0x3121, 0x3127, 0x312D, 0x3139, 0x3143, 0x3145, 0x314B, 0x315D, 0x3161, 0x3167, 0x316D, 0x3173, 0x317F, 0x3191, 0x3199],
  [0x319F, 0x31A9, 0x31B1, 0x31C3, 0x31C7, 0x31D5, 0x31DB, 0x31ED, 0x31F7, 0x31FF, 0x3209, 0x3215, 0x3217, 0x321D, 0x3229],
  [0x3235, 0x3259, 0x325D, 0x3263, 0x326B, 0x326F, 0x3275, 0x3277, 0x327B, 0x328D, 0x3299, 0x329F, 0x32A7, 0x32AD, 0x32B3],
  [0x32B7, 0x32C9, 0x32CB, 0x32CF, 0x32D1, 0x32E9, 0x32ED, 0x32F3, 0x32F9, 0x3307, 0x3325, 0x332B, 0x332F, 0x3335, 0x3341],
  [0x3347, 0x335B, 0x335F, 0x3367, 0x336B, 0x3373, 0x3379, 0x337F, 0x3383, 0x33A1, 0x33A3, 0x33AD, 0x33B9, 0x33C1, 0x33CB],
  [0x33D3, 0x33EB, 0x33F1, 0x33FD, 0x3401, 0x340F, 0x3413, 0x3419, 0x341B, 0x3437, 0x3445, 0x3455, 0x3457, 0x3463, 0x3469],
  [0x346D, 0x3481, 0x348B, 0x3491, 0x3497, 0x349D, 0x34A5, 0x34AF, 0x34BB, 0x34C9, 0x34D3, 0x34E1, 0x34F1, 0x34FF, 0x3509],
  [0x3517, 0x351D, 0x352D, 0x3533, 0x353B, 0x3541, 0x3551, 0x3565, 0x356F, 0x3571, 0x3577, 0x357B, 0x357D, 0x3581, 0x358D],
  [0x358F, 0x3599, 0x359B, 0x35A1, 0x35B7, 0x35BD, 0x35BF, 0x35C3, 0x35D5, 0x35DD, 0x35E7, 0x35EF, 0x3605, 0x3607, 0x3611],
  [0x3623, 0x3631, 0x3635, 0x3637, 0x363B, 0x364D, 0x364F, 0x3653, 0x3659, 0x3661, 0x366B, 0x366D, 0x368B, 0x368F, 0x36AD],
  [0x36AF, 0x36B9, 0x36BB, 0x36CD, 0x36D1, 0x36E3, 0x36E9, 0x36F7, 0x3701, 0x3703, 0x3707, 0x371B, 0x373F, 0x3745, 0x3749],
  [0x374F, 0x375D, 0x3761, 0x3775, 0x377F, 0x378D, 0x37A3, 0x37A9, 0x37AB, 0x37C9, 0x37D5, 0x37DF, 0x37F1, 0x37F3, 0x37F7],
  [0x3805, 0x380B, 0x3821, 0x3833, 0x3835, 0x3841, 0x3847, 0x384B, 0x3853, 0x3857, 0x385F, 0x3865, 0x386F, 0x3871, 0x387D],
  [0x388F, 0x3899, 0x38A7, 0x38B7, 0x38C5, 0x38C9, 0x38CF, 0x38D5, 0x38D7, 0x38DD, 0x38E1, 0x38E3, 0x38FF, 0x3901, 0x391D],
  [0x3923, 0x3925, 0x3929, 0x392F, 0x393D, 0x3941, 0x394D, 0x395B, 0x396B, 0x3979, 0x397D, 0x3983, 0x398B, 0x3991, 0x3995],
  [0x399B, 0x39A1, 0x39A7, 0x39AF, 0x39B3, 0x39BB, 0x39BF, 0x39CD, 0x39DD, 0x39E5, 0x39EB, 0x39EF, 0x39FB, 0x3A03, 0x3A13],
  [0x3A15, 0x3A1F, 0x3A27, 0x3A2B, 0x3A31, 0x3A4B, 0x3A51, 0x3A5B, 0x3A63, 0x3A67, 0x3A6D, 0x3A79, 0x3A87, 0x3AA5, 0x3AA9],
  [0x3AB7, 0x3ACD, 0x3AD5, 0x3AE1, 0x3AE5, 0x3AEB, 0x3AF3, 0x3AFD, 0x3B03, 0x3B11, 0x3B1B, 0x3B21, 0x3B23, 0x3B2D, 0x3B39],
  [0x3B45, 0x3B53, 0x3B59, 0x3B5F, 0x3B71, 0x3B7B, 0x3B81, 0x3B89, 0x3B9B, 0x3B9F, 0x3BA5, 0x3BA7, 0x3BAD, 0x3BB7, 0x3BB9],
  [0x3BC3, 0x3BCB, 0x3BD1, 0x3BD7, 0x3BE1, 0x3BE3, 0x3BF5, 0x3BFF, 0x3C01, 0x3C0D, 0x3C11, 0x3C17, 0x3C1F, 0x3C29, 0x3C35],
  [0x3C43, 0x3C4F, 0x3C53, 0x3C5B, 0x3C65, 0x3C6B, 0x3C71, 0x3C85, 0x3C89, 0x3C97, 0x3CA7, 0x3CB5, 0x3CBF, 0x3CC7, 0x3CD1],
  [0x3CDD, 0x3CDF, 0x3CF1, 0x3CF7, 0x3D03, 0x3D0D, 0x3D19, 0x3D1B, 0x3D1F, 0x3D21, 0x3D2D, 0x3D33, 0x3D37, 0x3D3F, 0x3D43],
  [0x3D6F, 0x3D73, 0x3D75, 0x3D79, 0x3D7B, 0x3D85, 0x3D91, 0x3D97, 0x3D9D, 0x3DAB, 0x3DAF, 0x3DB5, 0x3DBB, 0x3DC1, 0x3DC9],
  [0x3DCF, 0x3DF3, 0x3E05, 0x3E09, 0x3E0F, 0x3E11, 0x3E1D, 0x3E23, 0x3E29, 0x3E2F, 0x3E33, 0x3E41, 0x3E57, 0x3E63, 0x3E65],
  [0x3E77, 0x3E81, 0x3E87, 0x3EA1, 0x3EB9, 0x3EBD, 0x3EBF, 0x3EC3, 0x3EC5, 0x3EC9, 0x3ED7, 0x3EDB, 0x3EE1, 0x3EE7, 0x3EEF],
  [0x3EFF, 0x3F0B, 0x3F0D, 0x3F37, 0x3F3B, 0x3F3D, 0x3F41, 0x3F59, 0x3F5F, 0x3F65, 0x3F67, 0x3F79, 0x3F7D, 0x3F8B, 0x3F91],
  [0x3FAD, 0x3FBF, 0x3FCD, 0x3FD3, 0x3FDD, 0x3FE9, 0x3FEB, 0x3FF1, 0x3FFD, 0x401B, 0x4021, 0x4025, 0x402B, 0x4031, 0x403F],
  [0x4043, 0x4045, 0x405D, 0x4061, 0x4067, 0x406D, 0x4087, 0x4091, 0x40A3, 0x40A9, 0x40B1, 0x40B7, 0x40BD, 0x40DB, 0x40DF],
  [0x40EB, 0x40F7, 0x40F9, 0x4109, 0x410B, 0x4111, 0x4115, 0x4121, 0x4133, 0x4135, 0x413B, 0x413F, 0x4159, 0x4165, 0x416B],
  [0x4177, 0x417B, 0x4193, 0x41AB, 0x41B7, 0x41BD, 0x41BF, 0x41CB, 0x41E7, 0x41EF, 0x41F3, 0x41F9, 0x4205, 0x4207, 0x4219],
  [0x421F, 0x4223, 0x4229, 0x422F, 0x4243, 0x4253, 0x4255, 0x425B, 0x4261, 0x4273, 0x427D, 0x4283, 0x4285, 0x4289, 0x4291],
  [0x4297, 0x429D, 0x42B5, 0x42C5, 0x42CB, 0x42D3, 0x42DD, 0x42E3, 0x42F1, 0x4307, 0x430F, 0x431F, 0x4325, 0x4327, 0x4333],
  [0x4337, 0x4339, 0x434F, 0x4357, 0x4369, 0x438B, 0x438D, 0x4393, 0x43A5, 0x43A9, 0x43AF, 0x43B5, 0x43BD, 0x43C7, 0x43CF],
  [0x43E1, 0x43E7, 0x43EB, 0x43ED, 0x43F1, 0x43F9, 0x4409, 0x440B, 0x4417, 0x4423, 0x4429, 0x443B, 0x443F, 0x4445, 0x444B],
  [0x4451, 0x4453, 0x4459, 0x4465, 0x446F, 0x4483, 0x448F, 0x44A1, 0x44A5, 0x44AB, 0x44AD, 0x44BD, 0x44BF, 0x44C9, 0x44D7],
  [0x44DB, 0x44F9, 0x44FB, 0x4505, 0x4511, 0x4513, 0x452B, 0x4531, 0x4541, 0x4549, 0x4553, 0x4555, 0x4561, 0x4577, 0x457D],
  [0x457F, 0x458F, 0x45A3, 0x45AD, 0x45AF, 0x45BB, 0x45C7]]

/-- The table (src/kryptos_mp.c:75-213). -/
def smallPrimes : List Nat := smallPrimeRows.flatten

end Kryptos.Mp
