import Verif.Lemmas.Solve

/-!
# Tables for solving the 3x3: single pieces, and orienting the edges

Generated by a search outside Lean; nothing about the search is trusted. A table of words is a list of numbers, each of
which packs a fixed number of words. A word is a sequence of five-bit digits, the first move lowest: 0 ends the word, `n + 1`
is move `n` of `AxisMove::all`. `Lemmas/Stages.lean` checks in the kernel what the words do.
-/

namespace Barbarosa

/-- where move `n` brings the edge with code `x`: the five bits at `24 n + x` -/
def edgeSteps : Nat := 0xbdab4634437ba115a928398a494c20bdab410d8d7ba535a928398a484420bdab48c2727b8625a928398a46b020bdab4634437ba115a928398a494c20bdab410d8d7ba535a928398a484420bdab48c2727b8625a928398a46b020bdab4634437ba115a928398a494c20bdab410d8d7ba535a928398a484420bdab48c2727b8625a928398a46b020bdab4634437ba115a928398a494c20bdab410d8d7ba535a928398a484420bdab48c2727b8625a928398a46b020bdab4634437ba115a928398a494c20bdab410d8d7ba535a928398a484420bdab48c2727b8625a928398a46b020bdab4634437ba115a928398a494c20bdab49ca30215ac5a92873c01188c7bdab49ca30081ac5a928290e6189eebdab49ca3031dac5a928005cf188856b1ee9ca30bdab45a928398a418820ad2f69ca306b1ee5a928398a4188207b9ac9ca30ad2f65a928398a418820bdab49ca307b9ac08062398a45a928bdab49ca307b9ac4a16a398a408062bdab49ca307b9ac18820398a44a16a39ab4bda307b9ac9c9285a8a4188205aab439a307b9acbd9289c8a4188209cab45aa307b9ac39928bd8a418820bda309c9287b9ac5a8a439ab418820bd9289c8a47b9ac5aab439a3018820bd8a49cab47b9ac5aa303992818820

/-- where move `n` brings the corner with code `x`: the five bits at `24 n + x` -/
def cornerSteps : Nat := 0xa4a6e636f5b45f05a928398a4188208be17ad9cc6d2535a928398a4188207359183e9395ed55a928398a418820a4a6e636f5b45f05a928398a4188208be17ad9cc6d2535a928398a4188207359183e9395ed55a928398a418820a4a6e636f5b45f05a928398a4188208be17ad9cc6d2535a928398a4188207359183e9395ed55a928398a418820a4a6e636f5b45f05a928398a4188208be17ad9cc6d2535a928398a4188207359183e9395ed55a928398a418820a4a6e636f5b45f05a928398a4188208be17ad9cc6d2535a928398a4188207359183e9395ed55a928398a418820a4a6e636f5b45f05a928398a418820bdab49ca307b9ac418e20056951464bdab49ca307b9ac1040520d0732d49bdab49ca307b9ac28c8b4a8400a0c794e863a2307b9acadae952ca41882041ccb526307b9aca4e57b54a4188204a975b5e307b9ac31d129d0a418820bdab49c8642be115a92839801131aebdab49c841014835a928399cd6460fbdab49c98d700225a928399f088c8552d349cad7ab9ac2146839a1178820290749c96a4b9ac8c1e839af6a8820845f49c8851b9acb5ea83994b48820bdaad73230784405a933a48a419d06bdaa2082307a0e65a92e6b0a41d272bdaa741a307ce925a921100a41b5cc

/-- the orientation index of the corner with code `x`: the two bits at `x` -/
def twistTable : Nat := 0x8524a14a1852

/-- the permutations of four things, as four digits to the base four -/
def fours : Nat := 0x1b4b278763931e4e36c672d22d8d39c9b1e16c9c78d8b4e4

/-- the same permutations as products of exchanges -/
def fourSwaps : List (List (Fin 4 × Fin 4)) := [[], [(3, 2)], [(2, 1)], [(2, 1), (3, 2)], [(3, 1), (3, 2)], [(3, 1)], [(1, 0)], [(1, 0), (3, 2)], [(1, 0), (2, 1)], [(1, 0), (2, 1), (3, 2)], [(1, 0), (3, 1), (3, 2)], [(1, 0), (3, 1)], [(2, 0), (2, 1)], [(2, 0), (2, 1), (3, 2)], [(2, 0)], [(2, 0), (3, 2)], [(2, 0), (3, 1)], [(2, 0), (3, 1), (3, 2)], [(3, 0), (3, 1), (3, 2)], [(3, 0), (3, 1)], [(3, 0), (3, 2)], [(3, 0)], [(3, 0), (2, 1), (3, 2)], [(3, 0), (2, 1)]]

/-- stage 1: 64 words of at most 7 moves in a number -/
def stage1Words : List Nat := [
  0x201615a00000000000000000000069d44000000000000201614000346a2000000000000000000000206508000348c1800000000001a3221c00000000000000000000069da40000000000001a772000001a970000000000000d1a1a0000000000000000000000352d0000d1a1c0000000000000000000000352f00000000000001034000001a478000000000000000000001a75c400001a770000000000000d19da000000000000000000000034ed0000d19dc000000000000000000000034ef0000000000000100c800001a36800000000000006a1c00000000000000000000069da100000000000000d434000348f300000000000000000000000d43c000342d1800000000001a16b2200000000000000000000000000,
  0x402569c0069c8b78000000000020233c60000000000000000000006a46b002012b4800000000000000000000069c8b0000000000000100980003464580000000000010119e0000000000000000000000352b0000000000001a342c000342b200000000000000000000001011800001a4580000000000010098e000000000000000000000040d200010095a000000000000000000000034eb00000000000001009400001a358000000000000000000001a442c000346b68000000000001009920000000000000000000000403000000000000000d42c000000d5800000000001a143580000000000000000000000356f001a143980000000000000000000000356d00000000000020181c000342d6000000000,
  0x402c2bc0069da46800000000001a3221a00000000000000000000003523001a3221e000000000000000000000034e40000000000001a322000001a32000000000000103360000000000000000000000001a900000000000000d1a000001a3480000000000000000000000d224000000d20000000000000d19120000000000000000000000348d000100b64000000000000000000000001a700000000000000d19c000000d180000000000000000000000d22000001a370000000000000d190e0000000000000000000000346f0000000000000006a0000000068000000000000d48ce000000000000000000000691a60000d390e000000000000000000000685e30000000000001a379c000342d5000000000,
  0x10099a00000000000000000000d3916d0000000000034689040068c8b78000000000000000000034888180068c8b6800000000034643c0c00000000000000000000d1911100000000000020233400040cd90000000000020131de00000000000000000000068d110020131da000000000000000000000691310000000000040263b800684ca28000000000000000000002012bc000402d800000000000201325e00000000000000000000068cf100201325a00000000000000000000068d6e0000000000040264b800684cc10000000000020181da0000000000000000000000351100000000000346789c0003541500000000000000000000346b71c0003586500000000003426439400000000000000000000d0b58e,
  0x35703c0006a582680000000003465548a0000000000000000000006a58203447740c00000000000000000000d121c7000000000000206504000348c100000000000010615a00000000000000000000d1b029000000000000010614000344968000000000000000000002023c400034497000000000000100a22000000000000000000000040f0001a8609a00000000000000000000069d830000000000001a860800001ac10000000000000000000002024c400034477000000000000100a6200000000000000000000004130000000000003467604000346c08000000000000d121a00000000000000000000069da30000d121c00000000000000000000d09c2f0000000000001a26a000001a26800000000,
  0x2066a5c0000000000000000000006ae0700000000000346b81c0068d70480000000000000000000348b82400691703800000000001a322e0000000000000000000000041260000000000001a95c000040a76800000000001a15920000000000000000000000040a70000d22e0000000000000000000000808f0000000000000000818000020638000000000000000000001a75c000040a968000000000000d1ae0000000000000000000000040a9001a33ba4000000000000000000000809300000000000000100c400002064000000000000006ae000000000000000000000d09c2b00000000000000081400001a25800000000000000000000010144000344b680000000000010498e000000000000000000000689eb,
  0x2016a620000000000000000000006c0f00000000000040cb6a400688e468000000000000000000034a791800688e47800000000001a32c8c000000000000000000000688e400000000000020c2bc00040ed80000000000001032da000000000000000000000034490000d2c8c0000000000000000000006892f00000000000001032c00001a220000000000000000000034a7914000412d8000000000001a2221a00000000000000000000003447001a2221e000000000000000000000688ef0000000000001a2220000342e10000000000000d2c8a000000000000000000000684e100000000000000d120000000d10000000000000000000001a243c00001a27000000000001a2390e0000000000000000000000344f,
  0x2066a400040cd3800000000001a3240c0000000000000000001a1448e1001a3740c00000000000000000000d29e060000000000034644480068cb0300000000000000819a0000000000000000000006a2470000000000001a344800040c778000000000000000000001a44c800034b03000000000001a32264000000000000000000000818ee000100b620000000000000000000006a2490000000000001a33c800040c878000000000000000000001a444800040c86800000000001a321e40000000000000000000008057100000000000000d44800034b02800000000001a919e400000000000000000000068912001a721e40000000000000000000006896e00000000000020a22800684cc0800000000,
  0x35703c40069d457800000000034496c0200000000000000000000d12e2703444640400000000000000000000069d45000000000000201618000346a2800000000001a8515e0000000000000000000006a5440000000000002053c400034a970000000000000000000001a851400001aa2800000000000100a24000000000000000000000040f200010509e00000000000000000000d228870000000000002054c400034a7700000000000000000000001050800034a77800000000000100a6400000000000000000000004132000000000003489510000348a20000000000000d12e200000000000000000000d2288f0000d2a1e0000000000000000000006a5e40000000000001a57a000001a57800000000,
  0x20169dc0000000000000000000006ae4700000000000346b91c0068d72480000000000000000000348b92400691723800000000001a322e4000000000000000000000040e10000000000001a95c800040477800000000001a15924000000000000000000000808ee0000d22e40000000000000000000000404700000000000001009c000020140000000000000000000001a75c8000404978000000000000d1ae40000000000000000000008092e001a16c040000000000000000000000404900000000000000080400002014800000000000006ae400000000000000000000d3248b000000000000010138000344b900000000000000000000000080800001a5580000000000010384e000000000000000000000695ab,
  0x201619a0000000000000000000006c0f20000000000034498040068a01480000000000000000000402b79c0068d456800000000001a224020000000000000000000006952300000000000344980800040ed9000000000001a2805000000000000000000000068931001a22404000000000000000000000034a90000000000001a32a0000342a280000000000000000000020a134000412d90000000000000d1402000000000000000000000688f1000100ade000000000000000000000034a70000000000000100ac00001a328000000000000d1404000000000000000000000699240000000000001a244000001a2880000000000000000000000d2a0000000d2800000000001a32248000000000000000000000034ad,
  0x20169c000402d4800000000001a34c0200000000000000000000d12641001a124040000000000000000001a12a602000000000003464440006889208000000000001009da0000000000000000000006a2070000000000001a3440000402878000000000000000000001a44c000040286800000000001a322600000000000000000000008050e00000805a0000000000000000000006a2090000000000001a33c0000345208000000000000000000001a444000040296800000000001a321e00000000000000000000008052e00000000000000d44000034521000000000001a919e000000000000000000000068911001a721e00000000000000000000006951000000000000020c1a800684ca3000000000,
  0x1b03ba20000000000000000001a2640e100000000000352c1400068a0768000000000000000000034ea2c80068a077000000000001a3516400000000000000000000081d4100000000000352a2480081d866800000000001a24b6000000000000000000000081d860000d51640000000000000000000100a8270000000000000103c4000344a28000000000000000000034ec1c0008254178000000000000d60a000000000000000000001033089001a23ba0000000000000000000000825410000000000000104c400034ac1000000000001a360600000000000000000001a23b221000000000000206610006888a2000000000000000000000201504006892e200000000000000822200000000000000000000081e04,
  0x34ea24000036077000000000001a351200000000000000000000006c0ed001a381dc0000000000000000000006c0ef00000000000346d81c0068d4580000000000000d4ba000000000000000000000d4a8900000000000001a96c0006892d90000000000000000000001a97c0000354580000000000000d23e0000000000000000000000002070000d3ba000000000000000000000d3b0720000000000001a76c0000358290000000000000000000001a77c000688ee90000000000000d1b60000000000000000000000002090000000000034ed0c00068d8190000000000000d1416000000000000000000000810e40000d2c9600000000000000000000080d2100000000000000004000000104000000000,
  0x1b03c4006c0ee5800000000001a3826200000000000000000000068a07001a481e20000000000000000000006964700000000000344482400688903800000000000103b620000000000000000000103b0cf0000000000001a24c000040eb68000000000000000000001a54c800040eb78000000000000d1120000000000000000000000040eb000104b620000000000000000000104a82d0000000000001a23c0000412b68000000000000000000001a53c8000412b78000000000000d19640000000000000000000000412b0000000000034270c00081e0468000000000000068a000000000000000000000d1192400000696400000000000000000000d094e100000000000000082c00001a22800000000,
  0x346d81da000000000000000000000036070000000000001a381c000347048000000000000000000001a4824000349038000000000000d192000000000000000000000d11c9200000000000000d4c0000020768000000000000d1a6000000000000000000000068932000006920000000000000000000000695300000000000001a46c00003444900000000000000000000000d3c0000020968000000000000068e0000000000000000000000688f20000d1ba0000000000000000000000694f00000000000001a37c00003465800000000000000036000000000000000000000d09c320000000000001a292000001a290000000000000000000001a582000001a58000000000001a16aa00000000000000000000000410e,
  0x68cec69c0069c8c78000000000020c2b420000000000000000000006a46c0346443d800000000000000000000069c8c00000000000020132800034646000000000001a3431a0000000000000000000000352c0000000000001a3430000342968000000000000000000001a44b000001a46000000000001a1225c000000000000000000000685a9001a33b1a000000000000000000000034ec0000000000001a33b000001a360000000000000000000001a443000034277000000000001a1221c000000000000000000000685a700000000000000d430000000d60000000000000d0a1a0000000000000000000000358f0000d0a1c0000000000000000000000358d0000000000000101c800001a16800000000,
  0x348c80cc00000000000000000000d5c0e100000000000352b804006ae01480000000000000000006910c8180d09c8f6000000000001a45c0200000000000000000000080d260000000000684ec6a0006852c6800000000001ab80500000000000000000000006852c001a65c8c0000000000000000000006992b000000000000010198000342460000000000000000000034eb80400684ec68000000000000d5c02000000000000000000000684ec001a65c06000000000000000000000698eb0000000000002012280003466580000000000010195a00000000000000000000069c2c00000000000001019400001a160000000000000000000001a642c00001a6580000000000201324400000000000000000000004070,
  0x201329a00000000000000000000d3918d0000000000035300c800684e4680000000000000000006848879c00684e47800000000001a48064000000000000000000000684e400000000000346863c00685a96800000000001a1225a00000000000000000000003429001a1225e0000000000000000000006852f0000000000001a122400001a1200000000000000000000346763c00685a768000000000000d806400000000000000000000003427001a1221e000000000000000000000684ef0000000000001a122000034243800000000000101b64000000000000000000000034e100000000000000d0a0000000d08000000000000000000001a143c00001a17000000000001a133220000000000000000000000342f,
  0x40666a40080ccd380000000000010334200000000000000000000d448e1001b00b8c0000000000000000001a13b1e40000000000034899040069201800000000000010199a00000000000000000000d0a58f00000000000346890c006848c780000000000000000000351022c006848c680000000003426648c00000000000000000000d09131001b00b8a00000000000000000000d09d8f0000000000001a8904000360180000000000000000000034889040068ccb680000000003489905200000000000000000000d091110000000000002032bc000406d800000000000203229a0000000000000000000006851100203229e0000000000000000000006858e00000000000020322800034266000000000,
  0x346e828a00000000000000000000d5c0ea0000000000685903c00d0c0ed80000000000000000000691125140d0c0ee8000000000034645c14000000000000000000000824ca000000000003512510006892c6800000000002065b580000000000000000000006892c001a45c1400000000000000000000d1258e000000000000010328000344460000000000000000000034eb82800688ec6800000000001a35c14000000000000000000000688ec0344443d800000000000000000000d11d8e00000000000020154800040c850000000000000d5c1400000000000000000000069d810000000000000102a800001a26000000000000000000000202548000344c6800000000000101a2200000000000000000000004152,
  0x691903240d0b207680000000003464640c00000000000000000000d0b20703427740c00000000000000000000d32e070000000000040265480d091903800000000001a4640c00000000000000000000d432470000000000034296400d0960c280000000000000000000348964800695903000000000001a1232000000000000000000000080cf0001ac80e200000000000000000000d43249000000000003427640008152d18000000000000000000034886480d0a2497000000000001a332e0000000000000000000000805510000000000001a8648006959028000000000000d0b2000000000000000000000069c4c0000d32e0000000000000000000000809510000000000000101c400034465800000000,
  0x36070c4008194d3800000000001b00a6200000000000000000000d0c0f003490386200000000000000000001022de70000000000684a79180d09207800000000000010329a00000000000000000000d1258f0000000000684a9918006888c78000000000000000000040aa790006888c6800000000001a12c8c00000000000000000000069c4400201536400000000000000000000d11d8f0000000000040aa784008112b680000000000000000006888c6a0008112b7800000000001a580620000000000000000000008112b00000000000020553c000414d90000000000001022da000000000000000000000034e20001022de0000000000000000000006898e00000000000001022c00034258800000000,
  0x4026536400000000000000000000d81c300000000000035300c4006c02980000000000000000000034f022c006c0875800000000001a381160000000000000000001a129e0600000000000353032c0080ced8000000000001a1240c00000000000000000000d0a2470000d81160000000000000000001a143e470000000000034244c800684b030000000000000000000034f00c4008054d88000000000000d806200000000000000000000d0a249001b00ba20000000000000000001a143e4900000000000342444800696018000000000000101b6200000000000000000000d3898f0000000000001a144800684b028000000000000000000034287c800688cb6800000000001a1332000000000000000000000080d51,
  0x1b050ca00000000000000000000d5c8ea0000000000685903c40d0c0ed90000000000000000000691105180d0c0ee9000000000001aa2c8200000000000000000000081c2a000000000003510514006952c78000000000342b249400000000000000000000d12591001a45c940000000000000000000006952c0000000000002013a8000354128000000000000000000034eb92800694ec7800000000001a2805800000000000000000000d11d91001a56486000000000000000000000694ec0000000000000100a8000346560000000000000d5c9400000000000000000000d3248c000000000000202538000344c880000000000000000000001012800001a56000000000000101a2400000000000000000000004150,
  0x352c80c006b2034800000000001a9740200000000000000000000d0b247001a4640600000000000000000000d32e4700000000000352f804006a8b00800000000001ac80d000000000000000000000d4320700000000000342964800808ef08000000000000000000034896400d0952f6000000000001a12324000000000000000000000040670000d640600000000000000000000d432090000000000034276480d094ed6000000000000000000003488640006959018000000000000d805a000000000000000000000040690000000000001a8640000412278000000000000d0b24000000000000000000000815510000d32e40000000000000000000000412200000000000000080c00002034000000000,
  0x36070c8008054d4800000000001b00a6400000000000000000000d0c0f20348a82c600000000000000000000d2c8e10000000000034a990400696414800000000002013a9a00000000000000000000d140e200000000000344980c00684a968000000000000000000684a77a000684a97800000000001a22406000000000000000000000684a9000100a9a00000000000000000000d29d8d0000000000684a769c00684a768000000000000000000034a790400684a778000000000000d2c82000000000000000000000684a7000000000000202534000414d80000000000000d14060000000000000000000006958e000101a9e000000000000000000000694e10000000000000101a800001a12800000000,
  0x352f805a0000000000000000000006c0e10000000000001a980400036014800000000000000000003490484006920708000000000000d240200000000000000000000d2a60100000000000342980c000406768000000000000d805000000000000000000000d0a207001a124060000000000000000000101a1a90000000000034244c0006889218000000000000000000001a780400040696800000000000006c0200000000000000000000d0a2090000d805c00000000000000000000d29e010000000000001b00bc00034b008000000000000080da0000000000000000000008244d0000000000001a1440000345218000000000000000000034287c000040686800000000001a1332400000000000000000000080d0e,
  0x34f0514006c0ee5000000000001a3828a00000000000000000000d13207034303ba200000000000000000000d2b2470000000000040e15480d0964770000000000000d828a0000000000000000001a2640e30000000000034496400068a4a28000000000000000000034a9648006960a3000000000001a22320000000000000000000000040ea001a774140000000000000000001a760609000000000003447640006b05250000000000000000000034a7648008256f6000000000001a32b240000000000000000000000412a0000000000034ec0c0008254378000000000000d132000000000000000000001021c8a0000d2b240000000000000000000008254300000000000000082800002085000000000,
  0x346c81da0000000000000000000006b20700000000000346c81c0068607680000000000000000000348c82400686077000000000001a3232000000000000000000000d0b6070000000000001a96400069d904000000000001a14b6000000000000000000000d125920000d232000000000000000000000d2a59000000000000342d4c0006888c90000000000000000000001a76400069d9048000000000000d1b2000000000000000000000d11d92001a13ba000000000000000000000d29d9000000000000342d3c00068cac8000000000000006b2000000000000000000000d3b0320000000000001ac7c0000344c90000000000000000000001ac6c000034ac80000000000000d0b6000000000000000000000004123,
  0x402a6a64000000000000000000000829a70000000000034303c40081d4d08000000000000000000685d03c40d0964778000000000342481e200000000000000000000d0964700000000000352a82c00040ea6800000000001a1828a00000000000000000000d140e3001a4541600000000000000000000d2c8e20000000000034254c80d094f240000000000000000000034ea82c000412a680000000000010534200000000000000000000d38a090020a685c000000000000000000010429a70000000000034253c8008214d080000000000000829a0000000000000000000104a86d0000000000001a7140000410a780000000000000000000344c740000410a68000000000000d0964000000000000000000000694e2,
  0x68d903bc0d0b607680000000003424825a0000000000000000000006860703424825e00000000000000000000d0ba07000000000003424824006849038000000000342d4b600000000000000000000006c0e20000000000001a14c000684f040000000000000000000034297c0006920710000000000000d092000000000000000000000d095300342d3b6000000000000000000000d386090000000000001a13c0000412d18000000000000000000034277c000825a37000000000001a121e000000000000000000000d094f00000000000001a70c00004123680000000000000686000000000000000000000069c520000d0ba000000000000000000000d131d20000000000001a17c000034258000000000,
  0x68cea69c0069c8a78000000000344a80480000000000000000000006a46a0020a13c800000000000000000000069c8a00000000000020133000034645000000000001a3429a0000000000000000000000352a0000000000001a3428000346950000000000000000000001a44a800001a45000000000001a122e2000000000000000000000691aa001a33a9a000000000000000000000034ea0000000000001a33a800001a350000000000000000000001a4428000346a6800000000001a321d400000000000000000000068dea00000000000000d428000000d50000000000000d0ae20000000000000000000000354f0000d321e0000000000000000000000354d00000000000001024000001a67800000000,
  0x3430608800000000000000000000d5c8e60000000000684eb9100d09c8d58000000000000000000034eb910006ae443800000000001a35c88000000000000000000000810e100000000000350a810006852b6800000000001a15c880000000000000000000006852b0000d5c880000000000000000000006992a00000000000020121c000342458000000000000000000684eb69c00684eb6800000000001a15c02000000000000000000000684eb001ab9110000000000000000000000698ea0000000000000100900003466500000000000010111e00000000000000000000069c2b0000000000001a142c00001a1580000000000000000000001011000001a650000000000020131ca00000000000000000000004092,
  0x201331a00000000000000000000d3914d0000000000689300980068c8a78000000000000000000034f02400068c8a6800000000001a280480000000000000000000006992300000000000346853c00691aa6800000000001a3321a0000000000000000000006852a0000d8120000000000000000000000034c90000000000001a33200003424500000000000000000000346753c0068dea6800000000001a331da000000000000000000000684ea001a331de000000000000000000000034c70000000000001a331c00001a33000000000000102360000000000000000000000035260000000000001a142800001a1500000000000000000000000d320000000d3000000000001a132a2000000000000000000000034cd,
  0x402469c008048d4800000000001b00ac80000000000000000001a14ade3000100b4800000000000000000000d3c0920000000000034678100068a412000000000001b0238400000000000000000000d0a56f000000000003468818006848b78000000000000000000001a8810000360490000000000342c911800000000000000000000d0916e00010091a00000000000000000000d09d6f0000000000035120ac0068cca78000000000000000000034888100068cca680000000003426540200000000000000000000d098ea000000000000202234000408d900000000000203231a0000000000000000000006856f00203231e0000000000000000000006856e00000000000020323000034265000000000,
  0x1b0508800000000000000000000d540f00000000000685703c00d11c8d50000000000000000000691325080d11c8f5000000000001ac1408000000000000000000000824cc00000000000352b830006892a6800000000001a254080000000000000000000006892a001a45c1800000000000000000000d1254e000000000000010330000344450000000000000000000034eb83000688ea6800000000001a35c18000000000000000000000688ea0344443d400000000000000000000d11d4e000000000000201648000358230000000000000d5c1800000000000000000000d09c2a0000000000000102b000001a25000000000000000000000202648000344a680000000000010222000000000000000000000004192,
  0x34ea810006aa043800000000001a3540800000000000000000000d0ae07001a7740800000000000000000000d32a070000000000034ed810006b05220000000000000d540800000000000000000000d42a470000000000034295c0006895220000000000000000000034895480d1114d50000000000000d811e00000000000000000000004087001aa811000000000000000000000d42a490000000000034275c00d09d6d1800000000000000000003488548008152d3000000000001a332a0000000000000000000000040890000000000001a854800040e568000000000000d0ae0000000000000000000000040e50000d32a00000000000000000000008099100000000000000081000002044000000000,
  0x3607340008198d380000000003430504800000000000000000000d140e6001b021e000000000000000000000d2c8870000000000034478100068a04380000000000010331a00000000000000000000d1254f000000000003449818006888a78000000000000000000684e1810006888a68000000000000d1408000000000000000000000688c900201636400000000000000000000d11d4f0000000000684eb83000688c768000000000000000000034a791000688c77800000000001a28110000000000000000000000688c700000000000020563c000418d900000000000010231a000000000000000000000689260000d2c880000000000000000000006894e00000000000001023000001a23000000000,
  0x34ed811a0000000000000000000006c0e60000000000034703980068e0930000000000000000000001a7810000360438000000000000d1c0800000000000000000000d11e440000000000001a9818000408768000000000000d811c00000000000000000000d12646000006c0800000000000000000000d2c0890000000000001b02340003452200000000000000000000349049400040896800000000001a3240a000000000000000000010221e70000d811000000000000000000000d29e040000000000034522200068a44380000000000000811a00000000000000000000081caf000000000003428548000408878000000000000000000001a644800034b02000000000001a132a000000000000000000000080d71,
  0x3469828400000000000000000000d540f20000000000685703c40d12a01480000000000000000006913050c0d1124a100000000003444540200000000000000000000081c2c00000000000352b930006952a78000000000342b249800000000000000000000d12551001a45c980000000000000000000006952a0000000000002013b0000402860000000000000000000034eb9300068a4a1000000000001a2540200000000000000000000d11d51002015bd4000000000000000000000694ea0000000000000100b0000346550000000000000d5c980000000000000000000006a546000000000000202638000344a880000000000000000000001013000001a55000000000000101adc00000000000000000000004190,
  0x685306080d0ae47680000000003469540200000000000000000000d0ae4703424830400000000000000000000d32a470000000000040266400d091723800000000001aa812200000000000000000000d42a070000000000034295c80d0952d580000000000000000000348954000808ef2000000000001a122e400000000000000000000080cec001a1830400000000000000000000d42a090000000000034275c8006895208000000000000000000034885400d094ef5800000000001a332a4000000000000000000000805900000000000001a8540006895210000000000000d0ae4000000000000000000000815910000d32a40000000000000000000006a4aa0000000000000101b000034255800000000,
  0x3607344008058d48000000000347049a20000000000000000000101ada7001b021e200000000000000000000d340f20000000000688c98040d11a014800000000002013b1a00000000000000000000d2a54d00000000006852b930008050c780000000000000000000404c698008050c6800000000001a2812000000000000000000000080ceb000100b1a00000000000000000000d29d4d00000000000404c68c0068caa78000000000000000000685259080068caa6800000000001a234020000000000000000000006a465000000000000202634000418d8000000000000101ada0000000000000000000006954e000101ade000000000000000000000035250000000000000101ac00034255000000000,
  0x40246a6400000000000000000000d81c2b0000000000035300ac006c02958000000000000000000034f0244006c0879000000000001a381220000000000000000001a132a470000000000035303440080cec6800000000001b00a160000000000000000001a12ade90000d812200000000000000000000d322070000000000034664400068a0488000000000000000000034f00ac008058d80000000000000d80560000000000000000001a12ade7001a1340400000000000000000000d322090000000000034663c000688d20800000000000101b1a00000000000000000000d440e500000000000342854000684ab78000000000000000000001a644000684ab6800000000001a132a400000000000000000000080d70,
  0x3530508006c0ee600000000003469828200000000000000000000d12a07001a4828400000000000000000000d2aa470000000000040e16480d111503800000000001a974180000000000000000001a95120c0000000000034495400081d6d50000000000000000000034a9548006a8b06000000000001a222a0000000000000000000000040ec0000d82840000000000000000001a23c9410000000000034475400068a4a08000000000000000000034a7548006960a1000000000001a32aa40000000000000000000000412c00000000000352a3480081d8468000000000000d12a000000000000000000000081d840000d2aa40000000000000000000101a42c00000000000000083000002086000000000,
  0x346a81da0000000000000000000006aa0700000000000346a81c0068d50480000000000000000000348a82400691503800000000001a322a000000000000000000000d33e070000000000001a95400069d504000000000001a34aa000000000000000000000d125520000d22a000000000000000000000d2a55000000000000348d540006888a90000000000000000000001a75400069d5048000000000000d1aa000000000000000000000d11d52001a3536000000000000000000000d29d5000000000000346f5400068caa8000000000000006aa000000000000000000000d4a8d00000000000001aa7c0000344a90000000000000000000001aa6c000034aa80000000000000d33e0000000000000000000000040e4,
  0x402c6a64000000000000000000000831a70000000000685305040d0c0ed58000000000000000000034d03c4008258d300000000003424828200000000000000000000d11a0700000000000352a83000040ec68000000000020c699c000000000000000000010431e900010634c00000000000000000000d496470000000000034464c00081d6d20000000000000000000034ea830000412c6800000000001a1828200000000000000000000d140e5001a6830400000000000000000000d2c8e40000000000034463c00d0960a080000000000000831a0000000000000000000103b08f000000000003449340000410c78000000000000000000001a92c8000410c68000000000000d11a000000000000000000000068925,
  0x68d503bc0d33e0768000000000346453e000000000000000000000d0aa0703464536000000000000000000000069a0700000000000346681c0068cd048000000000348d536000000000000000000000d49a070000000000034295400081da470000000000000000000001a64c000040ed2000000000001a122a000000000000000000000d119320346f53600000000000000000000006c0e50000000000034275400068e0928000000000000000000001a63c0006920720000000000000d19a000000000000000000000d118f20000000000001a934000040e468000000000000d0aa000000000000000000000d124d20000069a00000000000000000000006a4b00000000000001a66c000034469000000000,
  0x1b050c80000000000000000001a722daa000000000068cf05100d1254d08000000000000000000691103280d1916d5000000000034500b080000000000000000001a1321c7000000000003510510006a54168000000000343061200000000000000000000006a541001ab92880000000000000000000006b0c900000000000020660c000348a080000000000000000000351250c0069d867800000000001aa80640000000000000000000006a82703467634c00000000000000000000069d86000000000000201510000346c3000000000001a8505a00000000000000000000069d410000000000001a850400001aa08000000000000000000001a861800001ac3000000000001a1321c0000000000000000000006a9a1,
  0x69d500900d540870800000000001aa80480000000000000000001a15c067001ac80c80000000000000000001a6540e10000000000684ec9100d0b24438000000000020333580000000000000000001a14adea0000000000685106100d0916f500000000000000000000350c810006b2049000000000001a1648800000000000000000000080c870020123540000000000000000001a13adea00000000000350a904006aa01800000000000000000006910a9040d098ef5800000000001a6540200000000000000000000080c890000000000040446a80080ce56800000000001a15c0600000000000000000000080ce5001a65c880000000000000000000008112200000000000001019000034265800000000,
  0x69e0151010091a96000000000001b00a880000000000000000001a1321a7001b023060000000000000000001a1321e70000000000684f02400d094ed200000000000203335400000000000000000000d4a82f0000000000684c76a000684c9680000000000000000000351023000684c97800000000001a18120000000000000000000000684c900201235800000000000000000000d3b0cd0000000000035120a800684c768000000000000000000684c779c00684c77800000000001a59048000000000000000000000684c700000000000350a0bc006a9a16800000000001a1321a00000000000000000000068526001a1321e000000000000000000000698e10000000000001a132000001a13000000000,
  0x684ec911a00000000000000000000d81c26000000000003530098006c02930000000000000000000034f0090006c08708000000000000d80480000000000000000001a13c0920000000000685301980080c876800000000001b00a0c0000000000000000001a132de9000101b48000000000000000000010489a4000000000003428810006860490000000000000000000692090940080c896800000000000102342000000000000000000010395e1001b00b880000000000000000001a132da70000000000034c89040069601200000000000010191a00000000000000000001019caf00000000000404468400684cb780000000000000000000406579800684cb680000000003426540600000000000000000000d09911,
  0x34f0510006c1443800000000001a382880000000000000000001a181d900346e81940000000000000000001a4825520000000000688ec8100d1320438000000000000d828800000000000000000000d448ea0000000000034689280068a4a2000000000000000000003489928006920a9000000000001a2640800000000000000000000082887001b050e400000000000000000000d3c1520000000000034679280068e0a9000000000000000000003488928008190d50000000000344c8110000000000000000000000825440000000000001a8928000360a900000000003428929a00000000000000000000069d42001a5648800000000000000000000d12dca000000000000010510000344c3000000000,
  0x34ec811e00000000000000000000d640e60000000000684f06100d0c0e668000000000000000000034ec810006b2043800000000001a364080000000000000000001a132e0700000000000352c818006c1449000000000001a183080000000000000000001a1448ec0000d64080000000000000000001a44c15100000000000358f81000689922000000000000000000069190494006c1438800000000001aa80620000000000000000001a14492c001ac81100000000000000000001a44415100000000000402a2480d13244380000000000010235400000000000000000000d44151000000000003428930008110f50000000000000000000034c892800695902000000000001a132e000000000000000000000081123,
  0x688ec811a00000000000000000000d81ccc0000000000684f05100d0c14438000000000000000000034f0230006c0876000000000001a381180000000000000000001a12c88700000000000353033000810ed6000000000001a182880000000000000000001a1448ea0000d81180000000000000000001a2619a90000000000034e28100068a446000000000000000000068cf253c008112d6000000000001b00aa40000000000000000001a12c8e5001b022180000000000000000001a23b1e60000000000684889280d098ef100000000000010235800000000000000000000d3a84f000000000003428928006860a90000000000000000000034c893000689866800000000001a12c88000000000000000000000698e2,
  0x69d90235a132e07680000000003427811a00000000000000000000d0c0e603427811e0000000000000000001a174087000000000003427810006860438000000000358f811a00000000000000000000d81c460000000000034298180d09e0830000000000000000000034e1810006c08710000000000000d0c0800000000000000000000d38a44040246b240000000000000000001a1740e5000000000068490494006c02a88000000000000000000684ef8100d341838800000000001a181100000000000000000001a129e0400000000000408d5380080daa8800000000001a1240a0000000000000000001a12a605001a174080000000000000000001a263a4400000000000342644800684b02000000000,
  0x353050c006c14348000000000346980540000000000000000001a181d92001a482860000000000000000001a482550000000000068c888280d112415000000000001b050d000000000000000000000d440ea000000000003468828008050f5000000000000000000003489828006920a800000000003444540600000000000000000000081d830000d828600000000000000000000d3c1500000000000034678280068a415000000000000000000003488828006960a1800000000001a55482000000000000000000000830690000000000001a8828000360a8000000000001a2540600000000000000000000d1222a03428829c0000000000000000000006a58500000000000001060c00034aa0800000000,
  0x352a805a00000000000000000000d540e100000000000352a804006aa0148000000000000000000691504840d22a070800000000001a454020000000000000000001a132e470000000000685301b0006c1448800000000001aa80500000000000000000001a1440ec001ac81220000000000000000001a44c1500000000000040643c80d1115218000000000000000000034ea804006c14380000000000000d54020000000000000000001a14412c001a682860000000000000000001a44415000000000000354d80400695500800000000000101b5800000000000000000000d44150000000000003428830006895218000000000000000000034c88280080d0d6000000000001a132e400000000000000000000080ce4,
  0x68c88829a00000000000000000000d81c2a0000000000035300a8006c02950000000000000000000692090a80d240e15000000000001a480540000000000000000001a1340f20000000000685301a80080ced5000000000001b00a140000000000000000001a1440ea001b023200000000000000000001a1495e90000000000684898280d0920a80000000000000000000034f00a80080d2d50000000000000d80540000000000000000001a13c150001a683060000000000000000001a1495e700000000000352590400696015000000000000101b5400000000000000000000d4b0ad000000000003428828006852568000000000000000000034c883000685257800000000001a2340600000000000000000000068525,
  0x6a5500bda132e4768000000000348a805e0000000000000000001a1540670348a805a00000000000000000000d340e10000000000034c98040069a014800000000040643b640000000000000000001a1540e200000000006852a80c0d0c14488000000000000000000684c980c006c08c8800000000001a181220000000000000000001a1322070354d805a00000000000000000000d81c25000000000003526804006c02928000000000000000000034c78040d240e120000000000000d340200000000000000000000d4960100000000000406d6380080ce46800000000001a154060000000000000000001a1440e5001a134060000000000000000001a14960300000000000342644000688d21800000000,
  0x34703a9a0000000000000000000006c0ea0000000000034703a80068e0950000000000000000000034904a800692075000000000001a324140000000000000000001a1829a70000000000001a982800040ed5000000000001a34c1400000000000000000000d1264a0000d241400000000000000000000d2a60a00000000000348d828006889250000000000000000000001a7828000412d50000000000000d1c1400000000000000000000d11e4a001a3741400000000000000000000d29e0a00000000000346f8280068cb05000000000000006c140000000000000000001a13864a0000000000001b053c000345250000000000000000000001b053400034b05000000000001a1829a00000000000000000000081d44,
  0xd09e0c69c0d0c0ec6800000000684904b5800000000000000000000d0c0ec684904bd800000000000000000000d340ea0000000000684904b00d09207600000000003429831a00000000000000000000d4c1510000000000034298300d09e0860000000000000000000034c9828006920a8800000000001a124180000000000000000000103b07003427831a00000000000000000000d3c1510000000000034278300068e0a88000000000000000000034c78280d0c0e57000000000001a334140000000000000000000104a8920000000000034e1830000360a88000000000000d0c1800000000000000000000d38a4c0000d341400000000000000000000d4960a00000000000342f83000684b06000000000,
  0x68e0753da16c0ed500000000003464829e00000000000000000000d0c0ea03464829a00000000000000000000d340ec0000000000684904a80d0920750000000000348d829a00000000000000000000d81c4a0000000000034298280d09e0850000000000000000000034905340081d4d2000000000001a124140000000000000000001a12a60a0346f829a00000000000000000000d81cac000000000003427828008258d18000000000000000000034705380d1960a6800000000001a334180000000000000000001a129e0a0000000000001b0538006c14e40000000000000d0c1400000000000000000000d1494f0000d341800000000000000000000d1494e0000000000034292c800684b05000000000,
  0x684904b1a0000000000000000001a181d8f000000000d0920c7a40d09a076800000000000000000d0920c6a40d09a077800000000684904b4800000000000000000000d09a0700000000006853063c1019daa800000000003424831e0000000000000000001a149a0703424831a00000000000000000000d340e20000000000034264c00d0920a88000000000000000000684f063c101a5aa8000000000034263b6000000000000000000000d0c0e5034263be00000000000000000001a1740e40000000000034263c00d0920720000000000342f831a00000000000000000000d81c45000000000003429340006860a88000000000000000000034306380069a0c88000000000000d09a000000000000000000000d0a4b0]

end Barbarosa
