/-!
The table `powerpc_opcodes_qt` of qtlib/ppc-opc.c, lines 3532-7580, generated from its text with all macros expanded: the opcode, the mask and the flags
of every entry.  The fields `deprecated` and `operands` are not used by qtlib/ppcstats.c and are left out.
-/
namespace Stats

/-- ppc-opc.c:3533-3634. -/
def opcodes0 : List (Nat × Nat × Nat) :=
  [(0x00000200, 0xfc0007ff, 0x20000800),
   (0x08200000, 0xffe00000, 0x88),
   (0x08400000, 0xffe00000, 0x88),
   (0x08800000, 0xffe00000, 0x88),
   (0x08a00000, 0xffe00000, 0x88),
   (0x08a00000, 0xffe00000, 0x88),
   (0x08c00000, 0xffe00000, 0x88),
   (0x08c00000, 0xffe00000, 0x88),
   (0x09000000, 0xffe00000, 0x88),
   (0x09800000, 0xffe00000, 0x88),
   (0x09800000, 0xffe00000, 0x88),
   (0x0a000000, 0xffe00000, 0x88),
   (0x0a800000, 0xffe00000, 0x88),
   (0x0a800000, 0xffe00000, 0x88),
   (0x0b000000, 0xffe00000, 0x88),
   (0x0be00000, 0xffe00000, 0x88),
   (0x08000000, 0xfc000000, 0x88),
   (0x0c200000, 0xffe00000, 0x21),
   (0x0c200000, 0xffe00000, 0x32),
   (0x0c400000, 0xffe00000, 0x21),
   (0x0c400000, 0xffe00000, 0x32),
   (0x0c800000, 0xffe00000, 0x21),
   (0x0c800000, 0xffe00000, 0x32),
   (0x0ca00000, 0xffe00000, 0x21),
   (0x0ca00000, 0xffe00000, 0x32),
   (0x0ca00000, 0xffe00000, 0x21),
   (0x0ca00000, 0xffe00000, 0x32),
   (0x0cc00000, 0xffe00000, 0x21),
   (0x0cc00000, 0xffe00000, 0x32),
   (0x0cc00000, 0xffe00000, 0x21),
   (0x0cc00000, 0xffe00000, 0x32),
   (0x0d000000, 0xffe00000, 0x21),
   (0x0d000000, 0xffe00000, 0x32),
   (0x0d800000, 0xffe00000, 0x21),
   (0x0d800000, 0xffe00000, 0x32),
   (0x0d800000, 0xffe00000, 0x21),
   (0x0d800000, 0xffe00000, 0x32),
   (0x0e000000, 0xffe00000, 0x21),
   (0x0e000000, 0xffe00000, 0x32),
   (0x0e800000, 0xffe00000, 0x21),
   (0x0e800000, 0xffe00000, 0x32),
   (0x0e800000, 0xffe00000, 0x21),
   (0x0e800000, 0xffe00000, 0x32),
   (0x0f000000, 0xffe00000, 0x21),
   (0x0f000000, 0xffe00000, 0x32),
   (0x0fe00000, 0xffe00000, 0x21),
   (0x0fe00000, 0xffe00000, 0x32),
   (0x0c000000, 0xfc000000, 0x21),
   (0x0c000000, 0xfc000000, 0x32),
   (0x10000000, 0xfc6007ff, 0x1000000),
   (0x10000000, 0xfc0007ff, 0x100),
   (0x10000001, 0xfc00ffff, 0x10000000000),
   (0x10000002, 0xfc0007ff, 0x100),
   (0x10000004, 0xfc0007ff, 0x100),
   (0x10000006, 0xfc0007ff, 0x100),
   (0x10000007, 0xfc0007ff, 0x10000000000),
   (0x10000008, 0xfc0007ff, 0x100),
   (0x1000000a, 0xfc0007ff, 0x100),
   (0x1000000c, 0xfc00007e, 0x1000000),
   (0x1000000c, 0xfc0007ff, 0x100),
   (0x1000000e, 0xfc00007e, 0x1000000),
   (0x1000000e, 0xfc0007ff, 0x100),
   (0x10000010, 0xfc0007ff, 0xc4080000),
   (0x10000011, 0xfc0007ff, 0xc4080000),
   (0x10000014, 0xfc00003f, 0x1000000),
   (0x10000015, 0xfc00003f, 0x1000000),
   (0x10000016, 0xfc00003f, 0x1000000),
   (0x10000017, 0xfc00003f, 0x1000000),
   (0x10000018, 0xfc00f83f, 0x1000000),
   (0x10000018, 0xfc0007ff, 0xc4080000),
   (0x10000019, 0xfc00f83f, 0x1000000),
   (0x10000019, 0xfc0007ff, 0xc4080000),
   (0x1000001a, 0xfc00f83f, 0x1000000),
   (0x1000001b, 0xfc00f83f, 0x1000000),
   (0x1000001c, 0xfc00003f, 0x1000000),
   (0x1000001d, 0xfc00003f, 0x1000000),
   (0x1000001e, 0xfc00003f, 0x1000000),
   (0x1000001f, 0xfc00003f, 0x1000000),
   (0x10000020, 0xfc00003f, 0x100),
   (0x10000021, 0xfc00003f, 0x100),
   (0x10000022, 0xfc00003f, 0x100),
   (0x10000023, 0xfc00003f, 0x10000000000),
   (0x10000024, 0xfc0007ff, 0x1000000),
   (0x10000024, 0xfc00003f, 0x100),
   (0x10000025, 0xfc0007ff, 0x1000000),
   (0x10000025, 0xfc00003f, 0x100),
   (0x10000026, 0xfc00003f, 0x100),
   (0x10000027, 0xfc00003f, 0x100),
   (0x10000028, 0xfc0007ff, 0x1000000),
   (0x10000028, 0xfc00003f, 0x100),
   (0x10000029, 0xfc0007ff, 0x1000000),
   (0x10000029, 0xfc00003f, 0x100),
   (0x1000002a, 0xfc0007ff, 0x1000000),
   (0x1000002a, 0xfc00003f, 0x100),
   (0x1000002b, 0xfc0007ff, 0x1000000),
   (0x1000002b, 0xfc00003f, 0x100),
   (0x1000002c, 0xfc00043f, 0x100),
   (0x1000002d, 0xfc00003f, 0x1200000000),
   (0x1000002e, 0xfc00003f, 0x1000000),
   (0x1000002e, 0xfc00003f, 0x100)]

/-- ppc-opc.c:3635-3734. -/
def opcodes1 : List (Nat × Nat × Nat) :=
  [(0x1000002f, 0xfc00003f, 0x1000000),
   (0x1000002f, 0xfc00003f, 0x100),
   (0x10000030, 0xfc1f07ff, 0x1000000),
   (0x10000030, 0xfc00003f, 0x10000000000),
   (0x10000031, 0xfc1f07ff, 0x1000000),
   (0x10000031, 0xfc00003f, 0x10000000000),
   (0x10000032, 0xfc00f83f, 0x1000000),
   (0x10000033, 0xfc00f83f, 0x1000000),
   (0x10000033, 0xfc00003f, 0x10000000000),
   (0x10000034, 0xfc1f07ff, 0x1000000),
   (0x10000035, 0xfc1f07ff, 0x1000000),
   (0x10000038, 0xfc00003f, 0x1000000),
   (0x10000039, 0xfc00003f, 0x1000000),
   (0x1000003a, 0xfc00003f, 0x1000000),
   (0x1000003b, 0xfc00003f, 0x1000000),
   (0x1000003b, 0xfc00003f, 0x10000000000),
   (0x1000003c, 0xfc00003f, 0x1000000),
   (0x1000003c, 0xfc00003f, 0x1200000000),
   (0x1000003d, 0xfc00003f, 0x1000000),
   (0x1000003d, 0xfc00003f, 0x1200000000),
   (0x1000003e, 0xfc00003f, 0x1000000),
   (0x1000003e, 0xfc00003f, 0x1200000000),
   (0x1000003f, 0xfc00003f, 0x1000000),
   (0x1000003f, 0xfc00003f, 0x1200000000),
   (0x10000040, 0xfc6007ff, 0x1000000),
   (0x10000040, 0xfc0007ff, 0x100),
   (0x10000041, 0xfc0007ff, 0x10000000000),
   (0x10000042, 0xfc0007ff, 0x100),
   (0x10000044, 0xfc0007ff, 0x100),
   (0x10000046, 0xfc0007ff, 0x100),
   (0x10000047, 0xfc0007ff, 0x10000000000),
   (0x10000048, 0xfc0007ff, 0x100),
   (0x1000004a, 0xfc0007ff, 0x100),
   (0x1000004c, 0xfc00007e, 0x1000000),
   (0x1000004c, 0xfc0007ff, 0x100),
   (0x1000004e, 0xfc00007e, 0x1000000),
   (0x1000004e, 0xfc0007ff, 0x100),
   (0x10000050, 0xfc1f07ff, 0x1000000),
   (0x10000050, 0xfc0007ff, 0xc4080000),
   (0x10000051, 0xfc1f07ff, 0x1000000),
   (0x10000051, 0xfc0007ff, 0xc4080000),
   (0x10000058, 0xfc0007ff, 0xc4080000),
   (0x10000059, 0xfc0007ff, 0xc4080000),
   (0x1000005c, 0xfc0007ff, 0xc4080000),
   (0x1000005d, 0xfc0007ff, 0xc4080000),
   (0x10000080, 0xfc6007ff, 0x1000000),
   (0x10000080, 0xfc0007ff, 0x100),
   (0x10000082, 0xfc0007ff, 0x100),
   (0x10000084, 0xfc0007ff, 0x100),
   (0x10000085, 0xfc0007ff, 0x10000000000),
   (0x10000086, 0xfc0007ff, 0x100),
   (0x10000087, 0xfc0007ff, 0x10000000000),
   (0x10000088, 0xfc0007ff, 0x1200000000),
   (0x10000089, 0xfc0007ff, 0x1200000000),
   (0x1000008c, 0xfc0007ff, 0x100),
   (0x1000008e, 0xfc0007ff, 0x100),
   (0x10000090, 0xfc1f07ff, 0x1000000),
   (0x10000091, 0xfc1f07ff, 0x1000000),
   (0x10000098, 0xfc0007ff, 0xc4080000),
   (0x10000099, 0xfc0007ff, 0xc4080000),
   (0x100000c0, 0xfc6007ff, 0x1000000),
   (0x100000c0, 0xfc0007ff, 0x1200000000),
   (0x100000c2, 0xfc0007ff, 0x1200000000),
   (0x100000c4, 0xfc0007ff, 0x1200000000),
   (0x100000c5, 0xfc0007ff, 0x10000000000),
   (0x100000c6, 0xfc0007ff, 0x100),
   (0x100000c7, 0xfc0007ff, 0x1200000000),
   (0x100000ce, 0xfc0007ff, 0x100),
   (0x100000d8, 0xfc0007ff, 0xc4080000),
   (0x100000d9, 0xfc0007ff, 0xc4080000),
   (0x100000dc, 0xfc0007ff, 0xc4080000),
   (0x100000dd, 0xfc0007ff, 0xc4080000),
   (0x10000100, 0xfc0007ff, 0x1200000000),
   (0x10000102, 0xfc0007ff, 0x100),
   (0x10000104, 0xfc0007ff, 0x100),
   (0x10000107, 0xfc0007ff, 0x10000000000),
   (0x10000108, 0xfc0007ff, 0x100),
   (0x1000010a, 0xfc1f07ff, 0x100),
   (0x1000010c, 0xfc0007ff, 0x100),
   (0x1000010e, 0xfc0007ff, 0x100),
   (0x10000110, 0xfc1f07ff, 0x1000000),
   (0x10000110, 0xfc0007ff, 0xc4080000),
   (0x10000111, 0xfc1f07ff, 0x1000000),
   (0x10000111, 0xfc0007ff, 0xc4080000),
   (0x10000118, 0xfc0007ff, 0xc4080000),
   (0x10000119, 0xfc0007ff, 0xc4080000),
   (0x10000140, 0xfc0007ff, 0x1200000000),
   (0x10000142, 0xfc0007ff, 0x100),
   (0x10000144, 0xfc0007ff, 0x100),
   (0x10000147, 0xfc0007ff, 0x10000000000),
   (0x10000148, 0xfc0007ff, 0x100),
   (0x1000014a, 0xfc1f07ff, 0x100),
   (0x1000014c, 0xfc0007ff, 0x100),
   (0x1000014e, 0xfc0007ff, 0x100),
   (0x10000150, 0xfc0007ff, 0xc4080000),
   (0x10000151, 0xfc0007ff, 0xc4080000),
   (0x10000158, 0xfc0007ff, 0xc4080000),
   (0x10000159, 0xfc0007ff, 0xc4080000),
   (0x1000015c, 0xfc0007ff, 0xc4080000),
   (0x1000015d, 0xfc0007ff, 0xc4080000)]

/-- ppc-opc.c:3735-3834. -/
def opcodes2 : List (Nat × Nat × Nat) :=
  [(0x10000180, 0xfc0007ff, 0x100),
   (0x10000182, 0xfc0007ff, 0x100),
   (0x10000184, 0xfc0007ff, 0x100),
   (0x10000185, 0xfc0007ff, 0x10000000000),
   (0x10000187, 0xfc0007ff, 0x10000000000),
   (0x10000188, 0xfc0007ff, 0x1200000000),
   (0x1000018a, 0xfc1f07ff, 0x100),
   (0x1000018c, 0xfc0007ff, 0x100),
   (0x1000018e, 0xfc0007ff, 0x100),
   (0x10000198, 0xfc0007ff, 0xc4080000),
   (0x10000199, 0xfc0007ff, 0xc4080000),
   (0x100001c2, 0xfc0007ff, 0x1200000000),
   (0x100001c4, 0xfc0007ff, 0x100),
   (0x100001c5, 0xfc0007ff, 0x10000000000),
   (0x100001c6, 0xfc0007ff, 0x100),
   (0x100001ca, 0xfc1f07ff, 0x100),
   (0x100001ce, 0xfc0007ff, 0x100),
   (0x100001d8, 0xfc0007ff, 0xc4080000),
   (0x100001d9, 0xfc0007ff, 0xc4080000),
   (0x100001dc, 0xfc0007ff, 0xc4080000),
   (0x100001dd, 0xfc0007ff, 0xc4080000),
   (0x10000200, 0xfc0007ff, 0x1000),
   (0x10000200, 0xfc0007ff, 0x100),
   (0x10000201, 0xfc00ffff, 0x10000000000),
   (0x10000202, 0xfc0007ff, 0x1000),
   (0x10000202, 0xfc0007ff, 0x100),
   (0x10000204, 0xfc0007ff, 0x1000),
   (0x10000204, 0xfc0007ff, 0x1000),
   (0x10000204, 0xfc0007ff, 0x100),
   (0x10000206, 0xfc0007ff, 0x1000),
   (0x10000206, 0xfc0007ff, 0x1000),
   (0x10000206, 0xfc0007ff, 0x100),
   (0x10000208, 0xfc0007ff, 0x1000),
   (0x10000208, 0xfc0007ff, 0x100),
   (0x10000209, 0xfc0007ff, 0x1000),
   (0x1000020a, 0xfc0007ff, 0x1000),
   (0x1000020a, 0xfc1f07ff, 0x100),
   (0x1000020b, 0xfc0007ff, 0x1000),
   (0x1000020c, 0xfc0007ff, 0x1000),
   (0x1000020c, 0xfc1007ff, 0x100),
   (0x1000020d, 0xfc1007ff, 0x10000000000),
   (0x1000020d, 0xfc0007ff, 0x1000),
   (0x1000020e, 0xfc0007ff, 0x1000),
   (0x1000020e, 0xfc1f07ff, 0x100),
   (0x1000020f, 0xfc0007ff, 0x1000),
   (0x10000210, 0xfc1f07ff, 0x1000000),
   (0x10000211, 0xfc1f07ff, 0x1000000),
   (0x10000211, 0xfc0007ff, 0x1000),
   (0x10000212, 0xfc0007ff, 0x1000),
   (0x10000216, 0xfc0007ff, 0x1000),
   (0x10000217, 0xfc0007ff, 0x1000),
   (0x10000217, 0xfc0007ff, 0x1000),
   (0x10000218, 0xfc0007ff, 0x1000),
   (0x10000218, 0xfc0007ff, 0x1000),
   (0x10000218, 0xfc1f07ff, 0x4000000),
   (0x10000219, 0xfc0007ff, 0x1000),
   (0x1000021b, 0xfc0007ff, 0x1000),
   (0x1000021e, 0xfc0007ff, 0x1000),
   (0x10000220, 0xfc0007ff, 0x1000),
   (0x10000221, 0xfc0007ff, 0x1000),
   (0x10000222, 0xfc0007ff, 0x1000),
   (0x10000223, 0xfc0007ff, 0x1000),
   (0x10000224, 0xfc0007ff, 0x1000),
   (0x10000226, 0xfc0007ff, 0x1000),
   (0x10000228, 0xfc0007ff, 0x1000),
   (0x10000229, 0xfc0007ff, 0x1000),
   (0x1000022a, 0xfc0007ff, 0x1000),
   (0x1000022b, 0xfc0007ff, 0x1000),
   (0x1000022c, 0xfc0007ff, 0x1000),
   (0x1000022d, 0xfc0007ff, 0x1000),
   (0x1000022e, 0xfc0007ff, 0x1000),
   (0x1000022f, 0xfc0007ff, 0x1000),
   (0x10000230, 0xfc0007ff, 0x1000),
   (0x10000231, 0xfc0007ff, 0x1000),
   (0x10000232, 0xfc0007ff, 0x1000),
   (0x10000233, 0xfc0007ff, 0x1000),
   (0x10000234, 0xfc0007ff, 0x1000),
   (0x10000238, 0xfc1f07ff, 0x4000000),
   (0x10000240, 0xfc0007ff, 0x100),
   (0x10000241, 0xfc0007ff, 0x10000000000),
   (0x10000242, 0xfc0007ff, 0x100),
   (0x10000244, 0xfc0007ff, 0x100),
   (0x10000246, 0xfc0007ff, 0x100),
   (0x10000248, 0xfc0007ff, 0x100),
   (0x1000024a, 0xfc1f07ff, 0x100),
   (0x1000024c, 0xfc1807ff, 0x100),
   (0x1000024d, 0xfc1007ff, 0x10000000000),
   (0x1000024e, 0xfc1f07ff, 0x100),
   (0x10000258, 0xfc1f07ff, 0x4000000),
   (0x10000278, 0xfc0007f8, 0x1000),
   (0x10000278, 0xfc1f07ff, 0x4000000),
   (0x10000280, 0xfc0007ff, 0x1000),
   (0x10000280, 0xfc0007ff, 0x100),
   (0x10000281, 0xfc0007ff, 0x1000),
   (0x10000282, 0xfc0007ff, 0x1000),
   (0x10000282, 0xfc0007ff, 0x100),
   (0x10000283, 0xfc0007ff, 0x1000),
   (0x10000284, 0xfc0007ff, 0x1000),
   (0x10000284, 0xfc0007ff, 0x100),
   (0x10000285, 0xfc0007ff, 0x1000)]

/-- ppc-opc.c:3835-3934. -/
def opcodes3 : List (Nat × Nat × Nat) :=
  [(0x10000286, 0xfc0007ff, 0x1000),
   (0x10000286, 0xfc0007ff, 0x100),
   (0x10000287, 0xfc00ffff, 0x200000000000),
   (0x10000288, 0xfc0007ff, 0x1200000000),
   (0x10000288, 0xfc0007ff, 0x1000),
   (0x10000289, 0xfc0007ff, 0x1000),
   (0x1000028a, 0xfc0007ff, 0x1000),
   (0x1000028a, 0xfc1f07ff, 0x100),
   (0x1000028b, 0xfc0007ff, 0x1000),
   (0x1000028c, 0xfc0007ff, 0x1000),
   (0x1000028c, 0xfc1c07ff, 0x100),
   (0x1000028d, 0xfc1007ff, 0x10000000000),
   (0x1000028d, 0xfc0007ff, 0x1000),
   (0x1000028e, 0xfc0007ff, 0x1000),
   (0x1000028e, 0xfc1f07ff, 0x100),
   (0x10000290, 0xfc0007ff, 0x1000),
   (0x10040291, 0xfc1f07ff, 0x200000000000),
   (0x10000291, 0xfc0007ff, 0x1000),
   (0x10000292, 0xfc0007ff, 0x1000),
   (0x10000293, 0xfc0007ff, 0x1000),
   (0x10000294, 0xfc0007ff, 0x1000),
   (0x10040295, 0xfc1f07ff, 0x200000000000),
   (0x10000295, 0xfc0007ff, 0x1000),
   (0x10000296, 0xfc0007ff, 0x1000),
   (0x10000297, 0xfc0007ff, 0x1000),
   (0x10000298, 0xfc0007ff, 0x1000),
   (0x10000298, 0xffe007ff, 0x4000000),
   (0x1000029a, 0xfc0007ff, 0x1000),
   (0x1000029c, 0xfc0007ff, 0x1000),
   (0x1000029d, 0xfc0007ff, 0x1000),
   (0x1000029e, 0xfc0007ff, 0x1000),
   (0x100002a0, 0xfc0007ff, 0x200000000000),
   (0x100002a1, 0xfc0007ff, 0x200000000000),
   (0x100002a2, 0xfc0007ff, 0x200000000000),
   (0x100002a3, 0xfc0007ff, 0x200000000000),
   (0x100002a4, 0xfc0007ff, 0x200000000000),
   (0x100002a5, 0xfc0007ff, 0x200000000000),
   (0x100002a6, 0xfc0007ff, 0x200000000000),
   (0x100002a7, 0xfc0007ff, 0x200000000000),
   (0x100002a8, 0xfc0007ff, 0x200000000000),
   (0x100002a9, 0xfc0007ff, 0x200000000000),
   (0x100002aa, 0xfc0007ff, 0x200000000000),
   (0x100002ab, 0xfc0007ff, 0x200000000000),
   (0x100002ac, 0xfc0007ff, 0x200000000000),
   (0x100002ae, 0xfc0007ff, 0x200000000000),
   (0x100002af, 0xfc0007ff, 0x200000000000),
   (0x100002b0, 0xfc0007ff, 0x200000000000),
   (0x100002b1, 0xfc0007ff, 0x200000000000),
   (0x100002b8, 0xfc0007ff, 0x200000000000),
   (0x100002b8, 0xffe007ff, 0x4000000),
   (0x100002b9, 0xfc0007ff, 0x200000000000),
   (0x100002c0, 0xfc0007ff, 0x4000),
   (0x100002c1, 0xfc0007ff, 0x4000),
   (0x100002c2, 0xfc0007ff, 0x200000000000),
   (0x100002c2, 0xfc0007ff, 0x1200000000),
   (0x100002c3, 0xfc0007ff, 0x200000000000),
   (0x100002c4, 0xfc0007ff, 0x4000),
   (0x100002c4, 0xfc0007ff, 0x100),
   (0x100002c5, 0xfc0007ff, 0x4000),
   (0x100002c6, 0xfc0007ff, 0x4000),
   (0x100002c6, 0xfc0007ff, 0x100),
   (0x100002c7, 0xfc00ffff, 0x200000000000),
   (0x100002c7, 0xfc0007ff, 0x1200000000),
   (0x100002c8, 0xfc0007ff, 0x4000),
   (0x100002c9, 0xfc0007ff, 0x4000),
   (0x100002ca, 0xfc0007ff, 0x200000000000),
   (0x100002ca, 0xfc1f07ff, 0x100),
   (0x100002cb, 0xfc0007ff, 0x200000000000),
   (0x100002cc, 0xfc0007ff, 0x4000),
   (0x100002cd, 0xfc1007ff, 0x10000000000),
   (0x100002cd, 0xfc0007ff, 0x4000),
   (0x100002ce, 0xfc0007ff, 0x4000),
   (0x100002ce, 0xfc1f07ff, 0x100),
   (0x100002cf, 0xfc0007ff, 0x4000),
   (0x100002d0, 0xfc0007ff, 0x4000),
   (0x100402d1, 0xfc1f07ff, 0x200000000000),
   (0x100002d1, 0xfc0007ff, 0x4000),
   (0x100002d2, 0xfc0007ff, 0x4000),
   (0x100002d3, 0xfc0007ff, 0x4000),
   (0x100002d4, 0xfc0007ff, 0x4000),
   (0x100402d5, 0xfc1f07ff, 0x200000000000),
   (0x100002d5, 0xfc0007ff, 0x4000),
   (0x100002d6, 0xfc0007ff, 0x4000),
   (0x100002d7, 0xfc0007ff, 0x4000),
   (0x100002d8, 0xfc0007ff, 0x4000),
   (0x100002d8, 0xffe007ff, 0x4000000),
   (0x100002da, 0xfc0007ff, 0x4000),
   (0x100002dc, 0xfc0007ff, 0x4000),
   (0x100002dd, 0xfc0007ff, 0x4000),
   (0x100002de, 0xfc0007ff, 0x4000),
   (0x100002e0, 0xfc0007ff, 0x4000),
   (0x100002e1, 0xfc0007ff, 0x4000),
   (0x100002e2, 0xfc0007ff, 0x200000000000),
   (0x100002e2, 0xfc0007ff, 0x102000000),
   (0x100002e3, 0xfc0007ff, 0x200000000000),
   (0x100002e3, 0xfc0007ff, 0x102000000),
   (0x100002e4, 0xfc0007ff, 0x4000),
   (0x100002e5, 0xfc0007ff, 0x4000),
   (0x100002e6, 0xfc0007ff, 0x4000),
   (0x100002e7, 0xfc00ffff, 0x200000000000)]

/-- ppc-opc.c:3935-4034. -/
def opcodes4 : List (Nat × Nat × Nat) :=
  [(0x100002e8, 0xfc0007ff, 0x4000),
   (0x100002e9, 0xfc0007ff, 0x4000),
   (0x100002ea, 0xfc0007ff, 0x200000000000),
   (0x100002ea, 0xfc0007ff, 0x102000000),
   (0x100002eb, 0xfc0007ff, 0x200000000000),
   (0x100002eb, 0xfc0007ff, 0x102000000),
   (0x100002ec, 0xfc0007ff, 0x4000),
   (0x100002ed, 0xfc0007ff, 0x4000),
   (0x100002ee, 0xfc0007ff, 0x4000),
   (0x100002ef, 0xfc0007ff, 0x4000),
   (0x100002f0, 0xfc1f07ff, 0x4000),
   (0x100102f0, 0xfc1f07ff, 0x4000),
   (0x100002f1, 0xfc1f07ff, 0x4000),
   (0x100102f1, 0xfc1f07ff, 0x4000),
   (0x100402f1, 0xfc1f07ff, 0x200000000000),
   (0x100002f2, 0xfc0007ff, 0x4000),
   (0x100002f3, 0xfc0007ff, 0x4000),
   (0x100002f4, 0xfc0007ff, 0x4000),
   (0x100402f5, 0xfc1f07ff, 0x200000000000),
   (0x100002f5, 0xfc0007ff, 0x4000),
   (0x100002f6, 0xfc0007ff, 0x4000),
   (0x100002f7, 0xfc0007ff, 0x4000),
   (0x100002f8, 0xfc1f07ff, 0x4000),
   (0x100102f8, 0xfc1f07ff, 0x4000),
   (0x100002f8, 0xffe007ff, 0x4000000),
   (0x100002fa, 0xfc1f07ff, 0x4000),
   (0x100102fa, 0xfc1f07ff, 0x4000),
   (0x100002fc, 0xfc0007ff, 0x4000),
   (0x100002fd, 0xfc0007ff, 0x4000),
   (0x100002fe, 0xfc0007ff, 0x4000),
   (0x10000300, 0xfc0007ff, 0x1000),
   (0x10000300, 0xfc0007ff, 0x100),
   (0x10000301, 0xfc0007ff, 0x1000),
   (0x10000302, 0xfc0007ff, 0x1000),
   (0x10000302, 0xfc0007ff, 0x100),
   (0x10000303, 0xfc0007ff, 0x1000),
   (0x10000304, 0xfc0007ff, 0x1000),
   (0x10000304, 0xfc0007ff, 0x100),
   (0x10000305, 0xfc0007ff, 0x1000),
   (0x10000306, 0xfc0007ff, 0x100),
   (0x10000308, 0xfc0007ff, 0x1000),
   (0x10000308, 0xfc0007ff, 0x100),
   (0x10000309, 0xfc0007ff, 0x1000),
   (0x1000030a, 0xfc0007ff, 0x100),
   (0x1000030a, 0xfc0007ff, 0x100),
   (0x1000030c, 0xfc0007ff, 0x1000),
   (0x1000030c, 0xfc00ffff, 0x100),
   (0x1000030d, 0xfc1007ff, 0x10000000000),
   (0x1000030d, 0xfc0007ff, 0x1000),
   (0x1000030e, 0xfc0007ff, 0x1000),
   (0x1000030e, 0xfc0007ff, 0x100),
   (0x1000030f, 0xfc0007ff, 0x1000),
   (0x10000310, 0xfc0007ff, 0xc4080000),
   (0x10000310, 0xfc0007ff, 0x1000),
   (0x10000311, 0xfc0007ff, 0xc4080000),
   (0x10000311, 0xfc0007ff, 0x1000),
   (0x10000314, 0xfc0007ff, 0x1000),
   (0x10000315, 0xfc0007ff, 0x1000),
   (0x10000316, 0xfc0007ff, 0x1000),
   (0x10000317, 0xfc0007ff, 0x1000),
   (0x10000318, 0xfc0007ff, 0xc4080000),
   (0x10000318, 0xfc0007ff, 0x1000),
   (0x10000319, 0xfc0007ff, 0xc4080000),
   (0x10000319, 0xfc0007ff, 0x1000),
   (0x1000031c, 0xfc0007ff, 0x1000),
   (0x1000031d, 0xfc0007ff, 0x1000),
   (0x10000320, 0xfc0007ff, 0x1000),
   (0x10000321, 0xfc0007ff, 0x1000),
   (0x10000322, 0xfc0007ff, 0x1000),
   (0x10000323, 0xfc0007ff, 0x1000),
   (0x10000324, 0xfc0007ff, 0x1000),
   (0x10000325, 0xfc0007ff, 0x1000),
   (0x10000330, 0xfc0007ff, 0x1000),
   (0x10000331, 0xfc0007ff, 0x1000),
   (0x10000334, 0xfc0007ff, 0x1000),
   (0x10000335, 0xfc0007ff, 0x1000),
   (0x10000338, 0xfc0007ff, 0x1000),
   (0x10000339, 0xfc0007ff, 0x1000),
   (0x1000033c, 0xfc0007ff, 0x1000),
   (0x1000033d, 0xfc0007ff, 0x1000),
   (0x10000340, 0xfc0007ff, 0x100),
   (0x10000341, 0xfc0007ff, 0x10000000000),
   (0x10000342, 0xfc0007ff, 0x100),
   (0x10000344, 0xfc0007ff, 0x100),
   (0x10000346, 0xfc0007ff, 0x100),
   (0x10000348, 0xfc0007ff, 0x100),
   (0x1000034a, 0xfc0007ff, 0x100),
   (0x1000034a, 0xfc0007ff, 0x100),
   (0x1000034c, 0xfc00ffff, 0x100),
   (0x1000034d, 0xfc1007ff, 0x10000000000),
   (0x1000034e, 0xfc1f07ff, 0x100),
   (0x10000350, 0xfc0007ff, 0xc4080000),
   (0x10000351, 0xfc0007ff, 0xc4080000),
   (0x10000358, 0xfc0007ff, 0xc4080000),
   (0x10000359, 0xfc0007ff, 0xc4080000),
   (0x1000035c, 0xfc0007ff, 0xc4080000),
   (0x1000035d, 0xfc0007ff, 0xc4080000),
   (0x10000380, 0xfc0007ff, 0x100),
   (0x10000382, 0xfc0007ff, 0x100),
   (0x10000384, 0xfc0007ff, 0x100)]

/-- ppc-opc.c:4035-4134. -/
def opcodes5 : List (Nat × Nat × Nat) :=
  [(0x10000386, 0xfc0007ff, 0x100),
   (0x10000388, 0xfc0007ff, 0x1200000000),
   (0x1000038a, 0xfc0007ff, 0x100),
   (0x1000038a, 0xfc0007ff, 0x100),
   (0x1000038c, 0xfc00ffff, 0x100),
   (0x1000038d, 0xfc1007ff, 0x10000000000),
   (0x10000398, 0xfc0007ff, 0xc4080000),
   (0x10000399, 0xfc0007ff, 0xc4080000),
   (0x100003c2, 0xfc0007ff, 0x1200000000),
   (0x100003c4, 0xfc0007ff, 0x1200000000),
   (0x100003c6, 0xfc0007ff, 0x100),
   (0x100003c7, 0xfc0007ff, 0x1200000000),
   (0x100003ca, 0xfc0007ff, 0x100),
   (0x100003ca, 0xfc0007ff, 0x100),
   (0x100003cd, 0xfc1007ff, 0x10000000000),
   (0x100003ce, 0xfc1f07ff, 0x100),
   (0x100003d8, 0xfc0007ff, 0xc4080000),
   (0x100003d9, 0xfc0007ff, 0xc4080000),
   (0x100003dc, 0xfc0007ff, 0xc4080000),
   (0x100003dd, 0xfc0007ff, 0xc4080000),
   (0x10000400, 0xfc0007ff, 0x100),
   (0x10000401, 0xfc0005ff, 0x1200000000),
   (0x10000402, 0xfc0007ff, 0x100),
   (0x10000403, 0xfc0007ff, 0x1200000000),
   (0x10000403, 0xfc0007ff, 0x1000),
   (0x10000404, 0xfc0007ff, 0x100),
   (0x10000406, 0xfc0007ff, 0x100),
   (0x10000407, 0xfc0007ff, 0x10000000000),
   (0x10000406, 0xfc0007ff, 0x4080000),
   (0x10000407, 0xfc0007ff, 0x4080000),
   (0x10000407, 0xfc0007ff, 0x1000),
   (0x10000408, 0xfc0007ff, 0x1200000000),
   (0x10000408, 0xfc0007ff, 0x1000),
   (0x10000409, 0xfc0007ff, 0x1000),
   (0x1000040a, 0xfc0007ff, 0x100),
   (0x1000040b, 0xfc0007ff, 0x1000),
   (0x1000040c, 0xfc0007ff, 0x1000),
   (0x1000040c, 0xfc0007ff, 0x100),
   (0x1000040d, 0xfc0007ff, 0x1000),
   (0x1000040f, 0xfc0007ff, 0x1000),
   (0x10000418, 0xfc0007ff, 0xc4080000),
   (0x10000419, 0xfc0007ff, 0xc4080000),
   (0x10000420, 0xfc0007ff, 0x1000000),
   (0x10000421, 0xfc0007ff, 0x1000000),
   (0x10000423, 0xfc0007ff, 0x1000),
   (0x10000427, 0xfc0007ff, 0x1000),
   (0x10000428, 0xfc0007ff, 0x1000),
   (0x10000429, 0xfc0007ff, 0x1000),
   (0x1000042b, 0xfc0007ff, 0x1000),
   (0x1000042c, 0xfc0007ff, 0x1000),
   (0x1000042d, 0xfc0007ff, 0x1000),
   (0x1000042f, 0xfc0007ff, 0x1000),
   (0x10000440, 0xfc0007ff, 0x100),
   (0x10000441, 0xfc0005ff, 0x1200000000),
   (0x10000442, 0xfc0007ff, 0x100),
   (0x10000443, 0xfc0007ff, 0x1000),
   (0x10000443, 0xfc0007ff, 0x1200000000),
   (0x10000444, 0xfc0007ff, 0x100),
   (0x10000446, 0xfc0007ff, 0x100),
   (0x10000446, 0xfc0007ff, 0x4080000),
   (0x10000447, 0xfc0007ff, 0x4080000),
   (0x10000447, 0xfc0007ff, 0x10000000000),
   (0x10000447, 0xfc0007ff, 0x1000),
   (0x10000448, 0xfc0007ff, 0x1200000000),
   (0x10000448, 0xfc0007ff, 0x1000),
   (0x1000044a, 0xfc0007ff, 0x100),
   (0x1000044b, 0xfc0007ff, 0x1000),
   (0x1000044c, 0xfc0007ff, 0x1000),
   (0x1000044c, 0xfc0007ff, 0x100),
   (0x1000044d, 0xfc0007ff, 0x1000),
   (0x1000044e, 0xfc0007ff, 0x1200000000),
   (0x1000044f, 0xfc0007ff, 0x1000),
   (0x10000453, 0xfc0007ff, 0x1000),
   (0x10000458, 0xfc0007ff, 0xc4080000),
   (0x10000458, 0xfc0007ff, 0x1000),
   (0x10000459, 0xfc0007ff, 0xc4080000),
   (0x10000459, 0xfc0007ff, 0x1000),
   (0x1000045b, 0xfc0007ff, 0x1000),
   (0x1000045c, 0xfc0007ff, 0xc4080000),
   (0x1000045d, 0xfc0007ff, 0xc4080000),
   (0x10000460, 0xfc0007ff, 0x1000000),
   (0x10000461, 0xfc0007ff, 0x1000000),
   (0x10000463, 0xfc0007ff, 0x1000),
   (0x10000467, 0xfc0007ff, 0x1000),
   (0x10000468, 0xfc0007ff, 0x1000),
   (0x1000046b, 0xfc0007ff, 0x1000),
   (0x1000046c, 0xfc0007ff, 0x1000),
   (0x1000046d, 0xfc0007ff, 0x1000),
   (0x1000046f, 0xfc0007ff, 0x1000),
   (0x10000473, 0xfc0007ff, 0x1000),
   (0x10000478, 0xfc0007ff, 0x1000),
   (0x10000479, 0xfc0007ff, 0x1000),
   (0x1000047b, 0xfc0007ff, 0x1000),
   (0x10000480, 0xfc0007ff, 0x100),
   (0x10000481, 0xfc0007ff, 0x10000000000),
   (0x10000482, 0xfc0007ff, 0x100),
   (0x10000483, 0xfc0007ff, 0x1200000000),
   (0x10000484, 0xfc0007ff, 0x100),
   (0x10000484, 0xfc0007ff, 0x100),
   (0x10000487, 0xfc0007ff, 0x10000000000)]

/-- ppc-opc.c:4135-4234. -/
def opcodes6 : List (Nat × Nat × Nat) :=
  [(0x10000488, 0xfc0007ff, 0x1200000000),
   (0x10000486, 0xfc0007ff, 0x100),
   (0x10000486, 0xfc0007ff, 0x4080000),
   (0x10000487, 0xfc0007ff, 0x4080000),
   (0x10000498, 0xfc0007ff, 0xc4080000),
   (0x10000499, 0xfc0007ff, 0xc4080000),
   (0x100004a0, 0xfc0007ff, 0x1000000),
   (0x100004a1, 0xfc0007ff, 0x1000000),
   (0x100004c0, 0xfc0007ff, 0x1200000000),
   (0x100004c0, 0xfc0007ff, 0x1000),
   (0x100004c1, 0xfc0005ff, 0x10000000000),
   (0x100004c1, 0xfc0007ff, 0x1000),
   (0x100004c2, 0xfc0007ff, 0x1000),
   (0x100004c3, 0xfc0007ff, 0x1000),
   (0x100004c4, 0xfc0007ff, 0x1000),
   (0x100004c4, 0xfc0007ff, 0x100),
   (0x100004c6, 0xfc0007ff, 0x1000),
   (0x100004c6, 0xfc0007ff, 0x100),
   (0x100004c6, 0xfc0007ff, 0x4080000),
   (0x100004c7, 0xfc0007ff, 0x1200000000),
   (0x100004c7, 0xfc0007ff, 0x4080000),
   (0x100004c7, 0xfc0007ff, 0x1000),
   (0x100004c8, 0xfc0007ff, 0x1200000000),
   (0x100004c8, 0xfc0007ff, 0x1000),
   (0x100004c9, 0xfc0007ff, 0x1000),
   (0x100004ca, 0xfc0007ff, 0x1000),
   (0x100004cb, 0xfc0007ff, 0x1000),
   (0x100004ce, 0xfc0007ff, 0x1200000000),
   (0x100004d8, 0xfc0007ff, 0xc4080000),
   (0x100004d9, 0xfc0007ff, 0xc4080000),
   (0x100004dc, 0xfc0007ff, 0xc4080000),
   (0x100004dd, 0xfc0007ff, 0xc4080000),
   (0x100004e0, 0xfc0007ff, 0x1000000),
   (0x100004e1, 0xfc0007ff, 0x1000000),
   (0x10000500, 0xfc0007ff, 0x1200000000),
   (0x10000500, 0xfc0007ff, 0x1000),
   (0x10000501, 0xfc0005ff, 0x10000000000),
   (0x10000501, 0xfc0007ff, 0x1000),
   (0x10000502, 0xfc0007ff, 0x100),
   (0x10000503, 0xfc0007ff, 0x1000),
   (0x10000504, 0xfc0007ff, 0x1000),
   (0x10000504, 0xfc0007ff, 0x100),
   (0x10000504, 0xfc0007ff, 0x100),
   (0x10000505, 0xfc0007ff, 0x1000),
   (0x10000506, 0xfc0007ff, 0x4080000),
   (0x10000507, 0xfc0007ff, 0x4080000),
   (0x10000507, 0xfc0007ff, 0x10000000000),
   (0x10000507, 0xfc0007ff, 0x1000),
   (0x10000508, 0xfc0007ff, 0x1000),
   (0x10000508, 0xfc0007ff, 0x1200000000),
   (0x10000509, 0xfc0007ff, 0x1200000000),
   (0x10000509, 0xfc0007ff, 0x1000),
   (0x1000050b, 0xfc0007ff, 0x1000),
   (0x1000050c, 0xfc1f07ff, 0x1200000000),
   (0x1000050c, 0xfc0007ff, 0x1000),
   (0x1000050d, 0xfc0007ff, 0x1000),
   (0x1000050f, 0xfc0007ff, 0x1000),
   (0x10000518, 0xfc0007ff, 0xc4080000),
   (0x10000519, 0xfc0007ff, 0xc4080000),
   (0x10000528, 0xfc0007ff, 0x1000),
   (0x10000529, 0xfc0007ff, 0x1000),
   (0x1000052b, 0xfc0007ff, 0x1000),
   (0x1000052c, 0xfc0007ff, 0x1000),
   (0x1000052d, 0xfc0007ff, 0x1000),
   (0x1000052f, 0xfc0007ff, 0x1000),
   (0x10000540, 0xfc0007ff, 0x1200000000),
   (0x10000540, 0xfc0007ff, 0x1000),
   (0x10000541, 0xfc0007ff, 0x10000000000),
   (0x10000541, 0xfc0007ff, 0x1000),
   (0x10000542, 0xfc0007ff, 0x100),
   (0x10000543, 0xfc0007ff, 0x1000),
   (0x10000544, 0xfc0007ff, 0x1000),
   (0x10000544, 0xfc0007ff, 0x1200000000),
   (0x10000545, 0xfc0007ff, 0x1000),
   (0x10000546, 0xfc0007ff, 0x4080000),
   (0x10000547, 0xfc0007ff, 0x4080000),
   (0x10000547, 0xfc0007ff, 0x10000000000),
   (0x10000547, 0xfc0007ff, 0x1000),
   (0x10000548, 0xfc0007ff, 0x1200000000),
   (0x10000548, 0xfc0007ff, 0x1000),
   (0x10000549, 0xfc0007ff, 0x1200000000),
   (0x10000549, 0xfc0007ff, 0x1000),
   (0x1000054b, 0xfc0007ff, 0x1000),
   (0x1000054c, 0xfc0007ff, 0x1000),
   (0x1000054c, 0xfc0007ff, 0x1200000000),
   (0x1000054d, 0xfc0007ff, 0x1000),
   (0x1000054e, 0xfc0007ff, 0x1200000000),
   (0x1000054f, 0xfc0007ff, 0x1000),
   (0x10000553, 0xfc0007ff, 0x1000),
   (0x10000558, 0xfc0007ff, 0xc4080000),
   (0x10000558, 0xfc0007ff, 0x1000),
   (0x10000559, 0xfc0007ff, 0xc4080000),
   (0x10000559, 0xfc0007ff, 0x1000),
   (0x1000055b, 0xfc0007ff, 0x1000),
   (0x1000055c, 0xfc0007ff, 0xc4080000),
   (0x1000055d, 0xfc0007ff, 0xc4080000),
   (0x10000564, 0xfc0007ff, 0x1000),
   (0x10000565, 0xfc0007ff, 0x1000),
   (0x10000567, 0xfc0007ff, 0x1000),
   (0x1000056f, 0xfc0007ff, 0x1000)]

/-- ppc-opc.c:4235-4334. -/
def opcodes7 : List (Nat × Nat × Nat) :=
  [(0x10000580, 0xfc0007ff, 0x1000),
   (0x10000580, 0xfc0007ff, 0x100),
   (0x10000581, 0xfc0007ff, 0x1000),
   (0x10000581, 0xfc1f07ff, 0x10000000000),
   (0x10020581, 0xfc1f05ff, 0x10000000000),
   (0x10040581, 0xfc1f05ff, 0x10000000000),
   (0x10050581, 0xfc1f07ff, 0x10000000000),
   (0x10060581, 0xfc1f05ff, 0x10000000000),
   (0x10070581, 0xfc1f05ff, 0x10000000000),
   (0x101f0581, 0xfc1f05ff, 0x10000000000),
   (0x10000582, 0xfc0007ff, 0x100),
   (0x10000583, 0xfc0007ff, 0x1000),
   (0x10000584, 0xfc0007ff, 0x1200000000),
   (0x10000584, 0xfc0007ff, 0x1000),
   (0x10000585, 0xfc0007ff, 0x1000),
   (0x10000586, 0xfc0007ff, 0x4080000),
   (0x10000587, 0xfc0007ff, 0x4080000),
   (0x10000587, 0xfc0007ff, 0x10000000000),
   (0x10000587, 0xfc0007ff, 0x1000),
   (0x10000588, 0xfc0007ff, 0x1000),
   (0x10000589, 0xfc0007ff, 0x1000),
   (0x1000058b, 0xfc0007ff, 0x1000),
   (0x1000058c, 0xfc0007ff, 0x1000),
   (0x1000058d, 0xfc0007ff, 0x1000),
   (0x1000058f, 0xfc0007ff, 0x1000),
   (0x10000598, 0xfc0007ff, 0xc4080000),
   (0x10000599, 0xfc0007ff, 0xc4080000),
   (0x100005a8, 0xfc0007ff, 0x1000),
   (0x100005a9, 0xfc0007ff, 0x1000),
   (0x100005ab, 0xfc0007ff, 0x1000),
   (0x100005ac, 0xfc0007ff, 0x1000),
   (0x100005ad, 0xfc0007ff, 0x1000),
   (0x100005af, 0xfc0007ff, 0x1000),
   (0x100005c0, 0xfc0007ff, 0x1000),
   (0x100005c1, 0xfc0005ff, 0x10000000000),
   (0x100005c1, 0xfc0007ff, 0x1000),
   (0x100005c3, 0xfc0007ff, 0x1000),
   (0x100005c4, 0xfc0007ff, 0x1000),
   (0x100005c4, 0xfc0007ff, 0x1200000000),
   (0x100005c5, 0xfc0007ff, 0x1000),
   (0x100005c6, 0xfc0007ff, 0x100),
   (0x100005c6, 0xfc0007ff, 0x4080000),
   (0x100005c7, 0xfc0007ff, 0x4080000),
   (0x100005c7, 0xfc0007ff, 0x1000),
   (0x100005c8, 0xfc00ffff, 0x1200000000),
   (0x100005c8, 0xfc0007ff, 0x1000),
   (0x100005c9, 0xfc0007ff, 0x1000),
   (0x100005cb, 0xfc0007ff, 0x1000),
   (0x100005cc, 0xfc0007ff, 0x1000),
   (0x100005cc, 0xfc0007ff, 0x10000000000),
   (0x100005cd, 0xfc0007ff, 0x1000),
   (0x100005ce, 0xfc0007ff, 0x1200000000),
   (0x100005cf, 0xfc0007ff, 0x1000),
   (0x100005d3, 0xfc0007ff, 0x1000),
   (0x100005d8, 0xfc0007ff, 0xc4080000),
   (0x100005d8, 0xfc0007ff, 0x1000),
   (0x100005d9, 0xfc0007ff, 0xc4080000),
   (0x100005d9, 0xfc0007ff, 0x1000),
   (0x100005db, 0xfc0007ff, 0x1000),
   (0x100005e4, 0xfc0007ff, 0x1000),
   (0x100005e5, 0xfc0007ff, 0x1000),
   (0x100005e7, 0xfc0007ff, 0x1000),
   (0x100005ef, 0xfc0007ff, 0x1000),
   (0x100005dc, 0xfc0007ff, 0xc4080000),
   (0x100005dd, 0xfc0007ff, 0xc4080000),
   (0x10000600, 0xfc0007ff, 0x100),
   (0x10000602, 0xfc1f07ff, 0x10000000000),
   (0x10010602, 0xfc1f07ff, 0x10000000000),
   (0x10060602, 0xfc1f07ff, 0x10000000000),
   (0x10070602, 0xfc1f07ff, 0x10000000000),
   (0x10080602, 0xfc1f07ff, 0x10000000000),
   (0x10090602, 0xfc1f07ff, 0x10000000000),
   (0x100a0602, 0xfc1f07ff, 0x10000000000),
   (0x10100602, 0xfc1f07ff, 0x10000000000),
   (0x10110602, 0xfc1f07ff, 0x10000000000),
   (0x10180602, 0xfc1f07ff, 0x10000000000),
   (0x10190602, 0xfc1f07ff, 0x10000000000),
   (0x101a0602, 0xfc1f07ff, 0x10000000000),
   (0x101c0602, 0xfc1f07ff, 0x10000000000),
   (0x101d0602, 0xfc1f07ff, 0x10000000000),
   (0x101e0602, 0xfc1f07ff, 0x10000000000),
   (0x101f0602, 0xfc1f07ff, 0x10000000000),
   (0x10000604, 0xfc1fffff, 0x100),
   (0x10000606, 0xfc0007ff, 0x100),
   (0x10000606, 0xfc0007ff, 0x80000),
   (0x10000607, 0xfc0007ff, 0x80000),
   (0x10000608, 0xfc0007ff, 0x100),
   (0x1000060d, 0xfc0007ff, 0x10000000000),
   (0x10000640, 0xfc0007ff, 0x100),
   (0x10000644, 0xffff07ff, 0x100),
   (0x10000646, 0xfc0007ff, 0x100),
   (0x10000648, 0xfc0007ff, 0x100),
   (0x10000648, 0xfc0007ff, 0x80000),
   (0x10000649, 0xfc0007ff, 0x80000),
   (0x1000064d, 0xfc0007ff, 0x10000000000),
   (0x1000064e, 0xfc1f07ff, 0x1200000000),
   (0x10000680, 0xfc0007ff, 0x100),
   (0x10000682, 0xfc0007ff, 0x1200000000),
   (0x10000684, 0xfc0007ff, 0x1200000000),
   (0x10000686, 0xfc0007ff, 0x100)]

/-- ppc-opc.c:4335-4444. -/
def opcodes8 : List (Nat × Nat × Nat) :=
  [(0x10000686, 0xfc0007ff, 0x80000),
   (0x10000687, 0xfc0007ff, 0x80000),
   (0x10000688, 0xfc0007ff, 0x100),
   (0x1000068c, 0xfc0007ff, 0x1200000000),
   (0x1000068d, 0xfc0007ff, 0x10000000000),
   (0x100006c2, 0xfc0007ff, 0x1200000000),
   (0x100006c4, 0xfc0007ff, 0x1200000000),
   (0x100006c6, 0xfc0007ff, 0x100),
   (0x100006c6, 0xfc0007ff, 0x80000),
   (0x100006c7, 0xfc0007ff, 0x1200000000),
   (0x100006c7, 0xfc0007ff, 0x80000),
   (0x100006ce, 0xfc1f07ff, 0x1200000000),
   (0x10000700, 0xfc0007ff, 0x100),
   (0x10000702, 0xfc1f07ff, 0x1200000000),
   (0x10000703, 0xfc1f07ff, 0x1200000000),
   (0x10000704, 0xfc0007ff, 0x10000000000),
   (0x10000706, 0xfc0007ff, 0x100),
   (0x10000706, 0xfc0007ff, 0x80000),
   (0x10000707, 0xfc0007ff, 0x80000),
   (0x10000708, 0xfc0007ff, 0x100),
   (0x1000070d, 0xfc0007ff, 0x10000000000),
   (0x10000718, 0xfc0007ff, 0xc4080000),
   (0x10000719, 0xfc0007ff, 0xc4080000),
   (0x10000740, 0xfc0007ff, 0x100),
   (0x10000742, 0xfc1f07ff, 0x1200000000),
   (0x10000743, 0xfc1f07ff, 0x1200000000),
   (0x10000744, 0xfc0007ff, 0x10000000000),
   (0x10000746, 0xfc0007ff, 0x100),
   (0x1000074d, 0xfc0007ff, 0x10000000000),
   (0x10000746, 0xfc0007ff, 0x80000),
   (0x10000747, 0xfc0007ff, 0x80000),
   (0x10000758, 0xfc0007ff, 0xc4080000),
   (0x10000759, 0xfc0007ff, 0xc4080000),
   (0x1000075c, 0xfc0007ff, 0xc4080000),
   (0x1000075d, 0xfc0007ff, 0xc4080000),
   (0x10000780, 0xfc0007ff, 0x100),
   (0x10000782, 0xfc1f07ff, 0x1200000000),
   (0x10000783, 0xfc1f07ff, 0x1200000000),
   (0x10000786, 0xfc0007ff, 0x100),
   (0x10000786, 0xfc0007ff, 0x80000),
   (0x10000787, 0xfc0007ff, 0x80000),
   (0x10000788, 0xfc0007ff, 0x100),
   (0x1000078c, 0xfc0007ff, 0x1200000000),
   (0x1000078d, 0xfc0007ff, 0x10000000000),
   (0x10000798, 0xfc0007ff, 0xc4080000),
   (0x10000799, 0xfc0007ff, 0xc4080000),
   (0x100007c2, 0xfc1f07ff, 0x1200000000),
   (0x100007c3, 0xfc1f07ff, 0x1200000000),
   (0x100007c6, 0xfc0007ff, 0x100),
   (0x100007c6, 0xfc0007ff, 0x80000),
   (0x100007c7, 0xfc0007ff, 0x1200000000),
   (0x100007c7, 0xfc0007ff, 0x80000),
   (0x100007d8, 0xfc0007ff, 0xc4080000),
   (0x100007d9, 0xfc0007ff, 0xc4080000),
   (0x100007dc, 0xfc0007ff, 0xc4080000),
   (0x100007dd, 0xfc0007ff, 0xc4080000),
   (0x100007ec, 0xffe007ff, 0x1000000),
   (0x1c000000, 0xfc000000, 0x21),
   (0x1c000000, 0xfc000000, 0x32),
   (0x20000000, 0xfc000000, 0x21),
   (0x20000000, 0xfc000000, 0x32),
   (0x24000000, 0xfc000000, 0x12),
   (0x28000000, 0xfc200000, 0x21),
   (0x28200000, 0xfc200000, 0x88),
   (0x28000000, 0xfc000000, 0x1),
   (0x28000000, 0xfc000000, 0x32),
   (0x2c000000, 0xfc200000, 0x21),
   (0x2c200000, 0xfc200000, 0x88),
   (0x2c000000, 0xfc000000, 0x1),
   (0x2c000000, 0xfc000000, 0x32),
   (0x30000000, 0xfc000000, 0x21),
   (0x30000000, 0xfc000000, 0x32),
   (0x30000000, 0xfc000000, 0x21),
   (0x34000000, 0xfc000000, 0x21),
   (0x34000000, 0xfc000000, 0x32),
   (0x34000000, 0xfc000000, 0x21),
   (0x38000000, 0xfc1f0000, 0x21),
   (0x38000000, 0xfc1f0000, 0x32),
   (0x38000000, 0xfc000000, 0x21),
   (0x38000000, 0xfc000000, 0x32),
   (0x38000000, 0xfc000000, 0x21),
   (0x38000000, 0xfc000000, 0x21),
   (0x3c000000, 0xfc1f0000, 0x21),
   (0x3c000000, 0xfc1f0000, 0x32),
   (0x3c000000, 0xfc000000, 0x21),
   (0x3c000000, 0xfc000000, 0x32),
   (0x3c000000, 0xfc000000, 0x21),
   (0x42000000, 0xfedf0003, 0x21),
   (0x42000000, 0xfedf0003, 0x21),
   (0x42000000, 0xfedf0003, 0x21),
   (0x42000000, 0xfedf0003, 0x32),
   (0x42000001, 0xfedf0003, 0x21),
   (0x42000001, 0xfedf0003, 0x21),
   (0x42000001, 0xfedf0003, 0x21),
   (0x42000001, 0xfedf0003, 0x32),
   (0x42000002, 0xfedf0003, 0x21),
   (0x42000002, 0xfedf0003, 0x21),
   (0x42000002, 0xfedf0003, 0x21),
   (0x42000002, 0xfedf0003, 0x32),
   (0x42000003, 0xfedf0003, 0x21)]

/-- ppc-opc.c:4445-4546. -/
def opcodes9 : List (Nat × Nat × Nat) :=
  [(0x42000003, 0xfedf0003, 0x21),
   (0x42000003, 0xfedf0003, 0x21),
   (0x42000003, 0xfedf0003, 0x32),
   (0x42400000, 0xfedf0003, 0x21),
   (0x42400000, 0xfedf0003, 0x21),
   (0x42400000, 0xfedf0003, 0x23),
   (0x42400001, 0xfedf0003, 0x21),
   (0x42400001, 0xfedf0003, 0x21),
   (0x42400001, 0xfedf0003, 0x23),
   (0x42400002, 0xfedf0003, 0x21),
   (0x42400002, 0xfedf0003, 0x21),
   (0x42400002, 0xfedf0003, 0x23),
   (0x42400003, 0xfedf0003, 0x21),
   (0x42400003, 0xfedf0003, 0x21),
   (0x42400003, 0xfedf0003, 0x23),
   (0x40800000, 0xff830003, 0x21),
   (0x40800000, 0xff830003, 0x21),
   (0x40800000, 0xff830003, 0x23),
   (0x40800000, 0xff830003, 0x21),
   (0x40800000, 0xff830003, 0x21),
   (0x40800000, 0xff830003, 0x23),
   (0x40800001, 0xff830003, 0x21),
   (0x40800001, 0xff830003, 0x21),
   (0x40800001, 0xff830003, 0x23),
   (0x40800001, 0xff830003, 0x21),
   (0x40800001, 0xff830003, 0x21),
   (0x40800001, 0xff830003, 0x23),
   (0x40800002, 0xff830003, 0x21),
   (0x40800002, 0xff830003, 0x21),
   (0x40800002, 0xff830003, 0x23),
   (0x40800002, 0xff830003, 0x21),
   (0x40800002, 0xff830003, 0x21),
   (0x40800002, 0xff830003, 0x23),
   (0x40800003, 0xff830003, 0x21),
   (0x40800003, 0xff830003, 0x21),
   (0x40800003, 0xff830003, 0x23),
   (0x40800003, 0xff830003, 0x21),
   (0x40800003, 0xff830003, 0x21),
   (0x40800003, 0xff830003, 0x23),
   (0x40810000, 0xff830003, 0x21),
   (0x40810000, 0xff830003, 0x21),
   (0x40810000, 0xff830003, 0x23),
   (0x40810000, 0xff830003, 0x21),
   (0x40810000, 0xff830003, 0x21),
   (0x40810000, 0xff830003, 0x23),
   (0x40810001, 0xff830003, 0x21),
   (0x40810001, 0xff830003, 0x21),
   (0x40810001, 0xff830003, 0x23),
   (0x40810001, 0xff830003, 0x21),
   (0x40810001, 0xff830003, 0x21),
   (0x40810001, 0xff830003, 0x23),
   (0x40810002, 0xff830003, 0x21),
   (0x40810002, 0xff830003, 0x21),
   (0x40810002, 0xff830003, 0x23),
   (0x40810002, 0xff830003, 0x21),
   (0x40810002, 0xff830003, 0x21),
   (0x40810002, 0xff830003, 0x23),
   (0x40810003, 0xff830003, 0x21),
   (0x40810003, 0xff830003, 0x21),
   (0x40810003, 0xff830003, 0x23),
   (0x40810003, 0xff830003, 0x21),
   (0x40810003, 0xff830003, 0x21),
   (0x40810003, 0xff830003, 0x23),
   (0x40820000, 0xff830003, 0x21),
   (0x40820000, 0xff830003, 0x21),
   (0x40820000, 0xff830003, 0x23),
   (0x40820001, 0xff830003, 0x21),
   (0x40820001, 0xff830003, 0x21),
   (0x40820001, 0xff830003, 0x23),
   (0x40820002, 0xff830003, 0x21),
   (0x40820002, 0xff830003, 0x21),
   (0x40820002, 0xff830003, 0x23),
   (0x40820003, 0xff830003, 0x21),
   (0x40820003, 0xff830003, 0x21),
   (0x40820003, 0xff830003, 0x23),
   (0x40830000, 0xff830003, 0x21),
   (0x40830000, 0xff830003, 0x21),
   (0x40830000, 0xff830003, 0x23),
   (0x40830000, 0xff830003, 0x21),
   (0x40830000, 0xff830003, 0x21),
   (0x40830000, 0xff830003, 0x21),
   (0x40830001, 0xff830003, 0x21),
   (0x40830001, 0xff830003, 0x21),
   (0x40830001, 0xff830003, 0x23),
   (0x40830001, 0xff830003, 0x21),
   (0x40830001, 0xff830003, 0x21),
   (0x40830001, 0xff830003, 0x21),
   (0x40830002, 0xff830003, 0x21),
   (0x40830002, 0xff830003, 0x21),
   (0x40830002, 0xff830003, 0x23),
   (0x40830002, 0xff830003, 0x21),
   (0x40830002, 0xff830003, 0x21),
   (0x40830002, 0xff830003, 0x21),
   (0x40830003, 0xff830003, 0x21),
   (0x40830003, 0xff830003, 0x21),
   (0x40830003, 0xff830003, 0x23),
   (0x40830003, 0xff830003, 0x21),
   (0x40830003, 0xff830003, 0x21),
   (0x40830003, 0xff830003, 0x21),
   (0x41800000, 0xff830003, 0x21)]

/-- ppc-opc.c:4547-4649. -/
def opcodes10 : List (Nat × Nat × Nat) :=
  [(0x41800000, 0xff830003, 0x21),
   (0x41800000, 0xff830003, 0x23),
   (0x41800001, 0xff830003, 0x21),
   (0x41800001, 0xff830003, 0x21),
   (0x41800001, 0xff830003, 0x23),
   (0x41800002, 0xff830003, 0x21),
   (0x41800002, 0xff830003, 0x21),
   (0x41800002, 0xff830003, 0x23),
   (0x41800003, 0xff830003, 0x21),
   (0x41800003, 0xff830003, 0x21),
   (0x41800003, 0xff830003, 0x23),
   (0x41810000, 0xff830003, 0x21),
   (0x41810000, 0xff830003, 0x21),
   (0x41810000, 0xff830003, 0x23),
   (0x41810001, 0xff830003, 0x21),
   (0x41810001, 0xff830003, 0x21),
   (0x41810001, 0xff830003, 0x23),
   (0x41810002, 0xff830003, 0x21),
   (0x41810002, 0xff830003, 0x21),
   (0x41810002, 0xff830003, 0x23),
   (0x41810003, 0xff830003, 0x21),
   (0x41810003, 0xff830003, 0x21),
   (0x41810003, 0xff830003, 0x23),
   (0x41820000, 0xff830003, 0x21),
   (0x41820000, 0xff830003, 0x21),
   (0x41820000, 0xff830003, 0x23),
   (0x41820001, 0xff830003, 0x21),
   (0x41820001, 0xff830003, 0x21),
   (0x41820001, 0xff830003, 0x23),
   (0x41820002, 0xff830003, 0x21),
   (0x41820002, 0xff830003, 0x21),
   (0x41820002, 0xff830003, 0x23),
   (0x41820003, 0xff830003, 0x21),
   (0x41820003, 0xff830003, 0x21),
   (0x41820003, 0xff830003, 0x23),
   (0x41830000, 0xff830003, 0x21),
   (0x41830000, 0xff830003, 0x21),
   (0x41830000, 0xff830003, 0x23),
   (0x41830000, 0xff830003, 0x21),
   (0x41830000, 0xff830003, 0x21),
   (0x41830000, 0xff830003, 0x21),
   (0x41830001, 0xff830003, 0x21),
   (0x41830001, 0xff830003, 0x21),
   (0x41830001, 0xff830003, 0x23),
   (0x41830001, 0xff830003, 0x21),
   (0x41830001, 0xff830003, 0x21),
   (0x41830001, 0xff830003, 0x21),
   (0x41830002, 0xff830003, 0x21),
   (0x41830002, 0xff830003, 0x21),
   (0x41830002, 0xff830003, 0x23),
   (0x41830002, 0xff830003, 0x21),
   (0x41830002, 0xff830003, 0x21),
   (0x41830002, 0xff830003, 0x21),
   (0x41830003, 0xff830003, 0x21),
   (0x41830003, 0xff830003, 0x21),
   (0x41830003, 0xff830003, 0x23),
   (0x41830003, 0xff830003, 0x21),
   (0x41830003, 0xff830003, 0x21),
   (0x41830003, 0xff830003, 0x21),
   (0x40000000, 0xffc00003, 0x21),
   (0x40000000, 0xffc00003, 0x21),
   (0x40000000, 0xffc00003, 0x21),
   (0x40000001, 0xffc00003, 0x21),
   (0x40000001, 0xffc00003, 0x21),
   (0x40000001, 0xffc00003, 0x21),
   (0x40000002, 0xffc00003, 0x21),
   (0x40000002, 0xffc00003, 0x21),
   (0x40000002, 0xffc00003, 0x21),
   (0x40000003, 0xffc00003, 0x21),
   (0x40000003, 0xffc00003, 0x21),
   (0x40000003, 0xffc00003, 0x21),
   (0x40400000, 0xffc00003, 0x21),
   (0x40400000, 0xffc00003, 0x21),
   (0x40400000, 0xffc00003, 0x21),
   (0x40400001, 0xffc00003, 0x21),
   (0x40400001, 0xffc00003, 0x21),
   (0x40400001, 0xffc00003, 0x21),
   (0x40400002, 0xffc00003, 0x21),
   (0x40400002, 0xffc00003, 0x21),
   (0x40400002, 0xffc00003, 0x21),
   (0x40400003, 0xffc00003, 0x21),
   (0x40400003, 0xffc00003, 0x21),
   (0x40400003, 0xffc00003, 0x21),
   (0x40800000, 0xff800003, 0x21),
   (0x40800000, 0xff800003, 0x21),
   (0x40800000, 0xff800003, 0x21),
   (0x40800000, 0xff800003, 0x32),
   (0x40800001, 0xff800003, 0x21),
   (0x40800001, 0xff800003, 0x21),
   (0x40800001, 0xff800003, 0x21),
   (0x40800001, 0xff800003, 0x32),
   (0x40800002, 0xff800003, 0x21),
   (0x40800002, 0xff800003, 0x21),
   (0x40800002, 0xff800003, 0x21),
   (0x40800002, 0xff800003, 0x32),
   (0x40800003, 0xff800003, 0x21),
   (0x40800003, 0xff800003, 0x21),
   (0x40800003, 0xff800003, 0x21),
   (0x40800003, 0xff800003, 0x32),
   (0x41000000, 0xffc00003, 0x21)]

/-- ppc-opc.c:4650-4757. -/
def opcodes11 : List (Nat × Nat × Nat) :=
  [(0x41000000, 0xffc00003, 0x21),
   (0x41000000, 0xffc00003, 0x21),
   (0x41000001, 0xffc00003, 0x21),
   (0x41000001, 0xffc00003, 0x21),
   (0x41000001, 0xffc00003, 0x21),
   (0x41000002, 0xffc00003, 0x21),
   (0x41000002, 0xffc00003, 0x21),
   (0x41000002, 0xffc00003, 0x21),
   (0x41000003, 0xffc00003, 0x21),
   (0x41000003, 0xffc00003, 0x21),
   (0x41000003, 0xffc00003, 0x21),
   (0x41400000, 0xffc00003, 0x21),
   (0x41400000, 0xffc00003, 0x21),
   (0x41400000, 0xffc00003, 0x21),
   (0x41400001, 0xffc00003, 0x21),
   (0x41400001, 0xffc00003, 0x21),
   (0x41400001, 0xffc00003, 0x21),
   (0x41400002, 0xffc00003, 0x21),
   (0x41400002, 0xffc00003, 0x21),
   (0x41400002, 0xffc00003, 0x21),
   (0x41400003, 0xffc00003, 0x21),
   (0x41400003, 0xffc00003, 0x21),
   (0x41400003, 0xffc00003, 0x21),
   (0x41800000, 0xff800003, 0x21),
   (0x41800000, 0xff800003, 0x21),
   (0x41800000, 0xff800003, 0x21),
   (0x41800000, 0xff800003, 0x32),
   (0x41800001, 0xff800003, 0x21),
   (0x41800001, 0xff800003, 0x21),
   (0x41800001, 0xff800003, 0x21),
   (0x41800001, 0xff800003, 0x32),
   (0x41800002, 0xff800003, 0x21),
   (0x41800002, 0xff800003, 0x21),
   (0x41800002, 0xff800003, 0x21),
   (0x41800002, 0xff800003, 0x32),
   (0x41800003, 0xff800003, 0x21),
   (0x41800003, 0xff800003, 0x21),
   (0x41800003, 0xff800003, 0x21),
   (0x41800003, 0xff800003, 0x32),
   (0x40000000, 0xfc000003, 0x21),
   (0x40000000, 0xfc000003, 0x21),
   (0x40000000, 0xfc000003, 0x23),
   (0x40000001, 0xfc000003, 0x21),
   (0x40000001, 0xfc000003, 0x21),
   (0x40000001, 0xfc000003, 0x23),
   (0x40000002, 0xfc000003, 0x21),
   (0x40000002, 0xfc000003, 0x21),
   (0x40000002, 0xfc000003, 0x23),
   (0x40000003, 0xfc000003, 0x21),
   (0x40000003, 0xfc000003, 0x21),
   (0x40000003, 0xfc000003, 0x23),
   (0x44000000, 0xffff0003, 0x2),
   (0x44000001, 0xffff0003, 0x10000000000),
   (0x44000001, 0xffff0003, 0x2),
   (0x44000002, 0xffff0003, 0x1),
   (0x44000002, 0xffff0003, 0x32),
   (0x44000003, 0xffff0003, 0x2),
   (0x48000000, 0xfc000003, 0x23),
   (0x48000001, 0xfc000003, 0x23),
   (0x48000002, 0xfc000003, 0x23),
   (0x48000003, 0xfc000003, 0x23),
   (0x4c000000, 0xfc63ffff, 0x23),
   (0x4c000004, 0xfc1fffff, 0x10000000000),
   (0x4c000004, 0xfc00003e, 0x10000000000),
   (0x4c000004, 0xfc00003e, 0x10000000000),
   (0x4e000020, 0xffffffff, 0x21),
   (0x4e000020, 0xffffffff, 0x21),
   (0x4e000021, 0xffffffff, 0x21),
   (0x4e000021, 0xffffffff, 0x21),
   (0x4e200020, 0xffffffff, 0x21),
   (0x4e200021, 0xffffffff, 0x21),
   (0x4e400020, 0xffffffff, 0x21),
   (0x4e400020, 0xffffffff, 0x21),
   (0x4e400021, 0xffffffff, 0x21),
   (0x4e400021, 0xffffffff, 0x21),
   (0x4e600020, 0xffffffff, 0x21),
   (0x4e600021, 0xffffffff, 0x21),
   (0x4e800020, 0xffffffff, 0x21),
   (0x4e800020, 0xffffffff, 0x32),
   (0x4e800021, 0xffffffff, 0x21),
   (0x4e800021, 0xffffffff, 0x32),
   (0x4f000020, 0xffffffff, 0x82000800),
   (0x4f000021, 0xffffffff, 0x82000800),
   (0x4f200020, 0xffffffff, 0x82000800),
   (0x4f200021, 0xffffffff, 0x82000800),
   (0x4f400020, 0xffffffff, 0x82000800),
   (0x4f400021, 0xffffffff, 0x82000800),
   (0x4f600020, 0xffffffff, 0x82000800),
   (0x4f600021, 0xffffffff, 0x82000800),
   (0x4c800020, 0xffe3ffff, 0x21),
   (0x4c800020, 0xffe3ffff, 0x21),
   (0x4c800020, 0xffe3ffff, 0x32),
   (0x4c800020, 0xffe3ffff, 0x21),
   (0x4c800020, 0xffe3ffff, 0x21),
   (0x4c800020, 0xffe3ffff, 0x32),
   (0x4c800021, 0xffe3ffff, 0x21),
   (0x4c800021, 0xffe3ffff, 0x21),
   (0x4c800021, 0xffe3ffff, 0x32),
   (0x4c800021, 0xffe3ffff, 0x21),
   (0x4c800021, 0xffe3ffff, 0x21)]

/-- ppc-opc.c:4758-4857. -/
def opcodes12 : List (Nat × Nat × Nat) :=
  [(0x4c800021, 0xffe3ffff, 0x32),
   (0x4c810020, 0xffe3ffff, 0x21),
   (0x4c810020, 0xffe3ffff, 0x21),
   (0x4c810020, 0xffe3ffff, 0x32),
   (0x4c810020, 0xffe3ffff, 0x21),
   (0x4c810020, 0xffe3ffff, 0x21),
   (0x4c810020, 0xffe3ffff, 0x32),
   (0x4c810021, 0xffe3ffff, 0x21),
   (0x4c810021, 0xffe3ffff, 0x21),
   (0x4c810021, 0xffe3ffff, 0x32),
   (0x4c810021, 0xffe3ffff, 0x21),
   (0x4c810021, 0xffe3ffff, 0x21),
   (0x4c810021, 0xffe3ffff, 0x32),
   (0x4c820020, 0xffe3ffff, 0x21),
   (0x4c820020, 0xffe3ffff, 0x21),
   (0x4c820020, 0xffe3ffff, 0x32),
   (0x4c820021, 0xffe3ffff, 0x21),
   (0x4c820021, 0xffe3ffff, 0x21),
   (0x4c820021, 0xffe3ffff, 0x32),
   (0x4c830020, 0xffe3ffff, 0x21),
   (0x4c830020, 0xffe3ffff, 0x21),
   (0x4c830020, 0xffe3ffff, 0x32),
   (0x4c830020, 0xffe3ffff, 0x21),
   (0x4c830020, 0xffe3ffff, 0x21),
   (0x4c830021, 0xffe3ffff, 0x21),
   (0x4c830021, 0xffe3ffff, 0x21),
   (0x4c830021, 0xffe3ffff, 0x32),
   (0x4c830021, 0xffe3ffff, 0x21),
   (0x4c830021, 0xffe3ffff, 0x21),
   (0x4ca00020, 0xffe3ffff, 0x21),
   (0x4ca00020, 0xffe3ffff, 0x21),
   (0x4ca00021, 0xffe3ffff, 0x21),
   (0x4ca00021, 0xffe3ffff, 0x21),
   (0x4ca10020, 0xffe3ffff, 0x21),
   (0x4ca10020, 0xffe3ffff, 0x21),
   (0x4ca10021, 0xffe3ffff, 0x21),
   (0x4ca10021, 0xffe3ffff, 0x21),
   (0x4ca20020, 0xffe3ffff, 0x21),
   (0x4ca20021, 0xffe3ffff, 0x21),
   (0x4ca30020, 0xffe3ffff, 0x21),
   (0x4ca30020, 0xffe3ffff, 0x21),
   (0x4ca30021, 0xffe3ffff, 0x21),
   (0x4ca30021, 0xffe3ffff, 0x21),
   (0x4cc00020, 0xffe3ffff, 0x82000800),
   (0x4cc00020, 0xffe3ffff, 0x82000800),
   (0x4cc00021, 0xffe3ffff, 0x82000800),
   (0x4cc00021, 0xffe3ffff, 0x82000800),
   (0x4cc10020, 0xffe3ffff, 0x82000800),
   (0x4cc10020, 0xffe3ffff, 0x82000800),
   (0x4cc10021, 0xffe3ffff, 0x82000800),
   (0x4cc10021, 0xffe3ffff, 0x82000800),
   (0x4cc20020, 0xffe3ffff, 0x82000800),
   (0x4cc20021, 0xffe3ffff, 0x82000800),
   (0x4cc30020, 0xffe3ffff, 0x82000800),
   (0x4cc30020, 0xffe3ffff, 0x82000800),
   (0x4cc30021, 0xffe3ffff, 0x82000800),
   (0x4cc30021, 0xffe3ffff, 0x82000800),
   (0x4ce00020, 0xffe3ffff, 0x82000800),
   (0x4ce00020, 0xffe3ffff, 0x82000800),
   (0x4ce00021, 0xffe3ffff, 0x82000800),
   (0x4ce00021, 0xffe3ffff, 0x82000800),
   (0x4ce10020, 0xffe3ffff, 0x82000800),
   (0x4ce10020, 0xffe3ffff, 0x82000800),
   (0x4ce10021, 0xffe3ffff, 0x82000800),
   (0x4ce10021, 0xffe3ffff, 0x82000800),
   (0x4ce20020, 0xffe3ffff, 0x82000800),
   (0x4ce20021, 0xffe3ffff, 0x82000800),
   (0x4ce30020, 0xffe3ffff, 0x82000800),
   (0x4ce30020, 0xffe3ffff, 0x82000800),
   (0x4ce30021, 0xffe3ffff, 0x82000800),
   (0x4ce30021, 0xffe3ffff, 0x82000800),
   (0x4d800020, 0xffe3ffff, 0x21),
   (0x4d800020, 0xffe3ffff, 0x21),
   (0x4d800020, 0xffe3ffff, 0x32),
   (0x4d800021, 0xffe3ffff, 0x21),
   (0x4d800021, 0xffe3ffff, 0x21),
   (0x4d800021, 0xffe3ffff, 0x32),
   (0x4d810020, 0xffe3ffff, 0x21),
   (0x4d810020, 0xffe3ffff, 0x21),
   (0x4d810020, 0xffe3ffff, 0x32),
   (0x4d810021, 0xffe3ffff, 0x21),
   (0x4d810021, 0xffe3ffff, 0x21),
   (0x4d810021, 0xffe3ffff, 0x32),
   (0x4d820020, 0xffe3ffff, 0x21),
   (0x4d820020, 0xffe3ffff, 0x21),
   (0x4d820020, 0xffe3ffff, 0x32),
   (0x4d820021, 0xffe3ffff, 0x21),
   (0x4d820021, 0xffe3ffff, 0x21),
   (0x4d820021, 0xffe3ffff, 0x32),
   (0x4d830020, 0xffe3ffff, 0x21),
   (0x4d830020, 0xffe3ffff, 0x21),
   (0x4d830020, 0xffe3ffff, 0x32),
   (0x4d830020, 0xffe3ffff, 0x21),
   (0x4d830020, 0xffe3ffff, 0x21),
   (0x4d830021, 0xffe3ffff, 0x21),
   (0x4d830021, 0xffe3ffff, 0x21),
   (0x4d830021, 0xffe3ffff, 0x32),
   (0x4d830021, 0xffe3ffff, 0x21),
   (0x4d830021, 0xffe3ffff, 0x21),
   (0x4da00020, 0xffe3ffff, 0x21)]

/-- ppc-opc.c:4858-4968. -/
def opcodes13 : List (Nat × Nat × Nat) :=
  [(0x4da00021, 0xffe3ffff, 0x21),
   (0x4da10020, 0xffe3ffff, 0x21),
   (0x4da10021, 0xffe3ffff, 0x21),
   (0x4da20020, 0xffe3ffff, 0x21),
   (0x4da20021, 0xffe3ffff, 0x21),
   (0x4da30020, 0xffe3ffff, 0x21),
   (0x4da30020, 0xffe3ffff, 0x21),
   (0x4da30021, 0xffe3ffff, 0x21),
   (0x4da30021, 0xffe3ffff, 0x21),
   (0x4dc00020, 0xffe3ffff, 0x82000800),
   (0x4dc00021, 0xffe3ffff, 0x82000800),
   (0x4dc10020, 0xffe3ffff, 0x82000800),
   (0x4dc10021, 0xffe3ffff, 0x82000800),
   (0x4dc20020, 0xffe3ffff, 0x82000800),
   (0x4dc20021, 0xffe3ffff, 0x82000800),
   (0x4dc30020, 0xffe3ffff, 0x82000800),
   (0x4dc30020, 0xffe3ffff, 0x82000800),
   (0x4dc30021, 0xffe3ffff, 0x82000800),
   (0x4dc30021, 0xffe3ffff, 0x82000800),
   (0x4de00020, 0xffe3ffff, 0x82000800),
   (0x4de00021, 0xffe3ffff, 0x82000800),
   (0x4de10020, 0xffe3ffff, 0x82000800),
   (0x4de10021, 0xffe3ffff, 0x82000800),
   (0x4de20020, 0xffe3ffff, 0x82000800),
   (0x4de20021, 0xffe3ffff, 0x82000800),
   (0x4de30020, 0xffe3ffff, 0x82000800),
   (0x4de30020, 0xffe3ffff, 0x82000800),
   (0x4de30021, 0xffe3ffff, 0x82000800),
   (0x4de30021, 0xffe3ffff, 0x82000800),
   (0x4c000020, 0xffe0ffff, 0x21),
   (0x4c000020, 0xffe0ffff, 0x21),
   (0x4c000021, 0xffe0ffff, 0x21),
   (0x4c000021, 0xffe0ffff, 0x21),
   (0x4c200020, 0xffe0ffff, 0x21),
   (0x4c200021, 0xffe0ffff, 0x21),
   (0x4c400020, 0xffe0ffff, 0x21),
   (0x4c400020, 0xffe0ffff, 0x21),
   (0x4c400021, 0xffe0ffff, 0x21),
   (0x4c400021, 0xffe0ffff, 0x21),
   (0x4c600020, 0xffe0ffff, 0x21),
   (0x4c600021, 0xffe0ffff, 0x21),
   (0x4c800020, 0xffe0ffff, 0x21),
   (0x4c800020, 0xffe0ffff, 0x21),
   (0x4c800020, 0xffe0ffff, 0x32),
   (0x4c800021, 0xffe0ffff, 0x21),
   (0x4c800021, 0xffe0ffff, 0x21),
   (0x4c800021, 0xffe0ffff, 0x32),
   (0x4ca00020, 0xffe0ffff, 0x21),
   (0x4ca00021, 0xffe0ffff, 0x21),
   (0x4cc00020, 0xffe0ffff, 0x82000800),
   (0x4cc00021, 0xffe0ffff, 0x82000800),
   (0x4ce00020, 0xffe0ffff, 0x82000800),
   (0x4ce00021, 0xffe0ffff, 0x82000800),
   (0x4d000020, 0xffe0ffff, 0x21),
   (0x4d000020, 0xffe0ffff, 0x21),
   (0x4d000021, 0xffe0ffff, 0x21),
   (0x4d000021, 0xffe0ffff, 0x21),
   (0x4d200020, 0xffe0ffff, 0x21),
   (0x4d200021, 0xffe0ffff, 0x21),
   (0x4d400020, 0xffe0ffff, 0x21),
   (0x4d400020, 0xffe0ffff, 0x21),
   (0x4d400021, 0xffe0ffff, 0x21),
   (0x4d400021, 0xffe0ffff, 0x21),
   (0x4d600020, 0xffe0ffff, 0x21),
   (0x4d600021, 0xffe0ffff, 0x21),
   (0x4d800020, 0xffe0ffff, 0x21),
   (0x4d800020, 0xffe0ffff, 0x21),
   (0x4d800020, 0xffe0ffff, 0x32),
   (0x4d800021, 0xffe0ffff, 0x21),
   (0x4d800021, 0xffe0ffff, 0x21),
   (0x4d800021, 0xffe0ffff, 0x32),
   (0x4da00020, 0xffe0ffff, 0x21),
   (0x4da00021, 0xffe0ffff, 0x21),
   (0x4dc00020, 0xffe0ffff, 0x82000800),
   (0x4dc00021, 0xffe0ffff, 0x82000800),
   (0x4de00020, 0xffe0ffff, 0x82000800),
   (0x4de00021, 0xffe0ffff, 0x82000800),
   (0x4c000020, 0xfc20ffff, 0x21),
   (0x4c000021, 0xfc20ffff, 0x21),
   (0x4c200020, 0xfc20ffff, 0x21),
   (0x4c200021, 0xfc20ffff, 0x21),
   (0x4c000020, 0xfc00e7ff, 0x21),
   (0x4c000020, 0xfc00ffff, 0x32),
   (0x4c000021, 0xfc00e7ff, 0x21),
   (0x4c000021, 0xfc00ffff, 0x32),
   (0x4c000024, 0xffffffff, 0x88),
   (0x4c000042, 0xfc0007ff, 0x21),
   (0x4c000042, 0xfc0007ff, 0x23),
   (0x4c00004c, 0xffffffff, 0x60040000),
   (0x4c00004e, 0xffffffff, 0x2000000),
   (0x4c000064, 0xffffffff, 0x23),
   (0x4c000066, 0xffffffff, 0x60200600),
   (0x4c0000a4, 0xffffffff, 0x10000000000),
   (0x4c0000a4, 0xffffffff, 0x2),
   (0x4c0000cc, 0xffffffff, 0x22000000),
   (0x4c000102, 0xfc0007ff, 0x23),
   (0x4c000124, 0xfffff7ff, 0x1000000000),
   (0x4c00012c, 0xffffffff, 0x21),
   (0x4c00012c, 0xffffffff, 0x32),
   (0x4c000182, 0xfc0007ff, 0x21)]

/-- ppc-opc.c:4969-5081. -/
def opcodes14 : List (Nat × Nat × Nat) :=
  [(0x4c000182, 0xfc0007ff, 0x23),
   (0x4c00018c, 0xfc0007ff, 0x2000000),
   (0x4c0001c2, 0xfc0007ff, 0x23),
   (0x4c000202, 0xfc0007ff, 0x23),
   (0x4c000224, 0xffffffff, 0x900000),
   (0x4c000242, 0xfc0007ff, 0x21),
   (0x4c000242, 0xfc0007ff, 0x23),
   (0x4c000264, 0xffffffff, 0x10000000000),
   (0x4c0002e4, 0xffffffff, 0x10000000000),
   (0x4c000324, 0xffffffff, 0x400000),
   (0x4c000342, 0xfc0007ff, 0x23),
   (0x4c000364, 0xffffffff, 0x400000),
   (0x4c000382, 0xfc0007ff, 0x21),
   (0x4c000382, 0xfc0007ff, 0x23),
   (0x4c0003a4, 0xffffffff, 0x400000),
   (0x4c0003e4, 0xffffffff, 0x400000),
   (0x4e800420, 0xffffffff, 0x23),
   (0x4e800421, 0xffffffff, 0x23),
   (0x4c800420, 0xffe3ffff, 0x21),
   (0x4c800420, 0xffe3ffff, 0x21),
   (0x4c800420, 0xffe3ffff, 0x21),
   (0x4c800420, 0xffe3ffff, 0x21),
   (0x4c800421, 0xffe3ffff, 0x21),
   (0x4c800421, 0xffe3ffff, 0x21),
   (0x4c800421, 0xffe3ffff, 0x21),
   (0x4c800421, 0xffe3ffff, 0x21),
   (0x4c810420, 0xffe3ffff, 0x21),
   (0x4c810420, 0xffe3ffff, 0x21),
   (0x4c810420, 0xffe3ffff, 0x21),
   (0x4c810420, 0xffe3ffff, 0x21),
   (0x4c810421, 0xffe3ffff, 0x21),
   (0x4c810421, 0xffe3ffff, 0x21),
   (0x4c810421, 0xffe3ffff, 0x21),
   (0x4c810421, 0xffe3ffff, 0x21),
   (0x4c820420, 0xffe3ffff, 0x21),
   (0x4c820420, 0xffe3ffff, 0x21),
   (0x4c820421, 0xffe3ffff, 0x21),
   (0x4c820421, 0xffe3ffff, 0x21),
   (0x4c830420, 0xffe3ffff, 0x21),
   (0x4c830420, 0xffe3ffff, 0x21),
   (0x4c830420, 0xffe3ffff, 0x21),
   (0x4c830420, 0xffe3ffff, 0x21),
   (0x4c830421, 0xffe3ffff, 0x21),
   (0x4c830421, 0xffe3ffff, 0x21),
   (0x4c830421, 0xffe3ffff, 0x21),
   (0x4c830421, 0xffe3ffff, 0x21),
   (0x4ca00420, 0xffe3ffff, 0x21),
   (0x4ca00420, 0xffe3ffff, 0x21),
   (0x4ca00421, 0xffe3ffff, 0x21),
   (0x4ca00421, 0xffe3ffff, 0x21),
   (0x4ca10420, 0xffe3ffff, 0x21),
   (0x4ca10420, 0xffe3ffff, 0x21),
   (0x4ca10421, 0xffe3ffff, 0x21),
   (0x4ca10421, 0xffe3ffff, 0x21),
   (0x4ca20420, 0xffe3ffff, 0x21),
   (0x4ca20421, 0xffe3ffff, 0x21),
   (0x4ca30420, 0xffe3ffff, 0x21),
   (0x4ca30420, 0xffe3ffff, 0x21),
   (0x4ca30421, 0xffe3ffff, 0x21),
   (0x4ca30421, 0xffe3ffff, 0x21),
   (0x4cc00420, 0xffe3ffff, 0x82000800),
   (0x4cc00420, 0xffe3ffff, 0x82000800),
   (0x4cc00421, 0xffe3ffff, 0x82000800),
   (0x4cc00421, 0xffe3ffff, 0x82000800),
   (0x4cc10420, 0xffe3ffff, 0x82000800),
   (0x4cc10420, 0xffe3ffff, 0x82000800),
   (0x4cc10421, 0xffe3ffff, 0x82000800),
   (0x4cc10421, 0xffe3ffff, 0x82000800),
   (0x4cc20420, 0xffe3ffff, 0x82000800),
   (0x4cc20421, 0xffe3ffff, 0x82000800),
   (0x4cc30420, 0xffe3ffff, 0x82000800),
   (0x4cc30420, 0xffe3ffff, 0x82000800),
   (0x4cc30421, 0xffe3ffff, 0x82000800),
   (0x4cc30421, 0xffe3ffff, 0x82000800),
   (0x4ce00420, 0xffe3ffff, 0x82000800),
   (0x4ce00420, 0xffe3ffff, 0x82000800),
   (0x4ce00421, 0xffe3ffff, 0x82000800),
   (0x4ce00421, 0xffe3ffff, 0x82000800),
   (0x4ce10420, 0xffe3ffff, 0x82000800),
   (0x4ce10420, 0xffe3ffff, 0x82000800),
   (0x4ce10421, 0xffe3ffff, 0x82000800),
   (0x4ce10421, 0xffe3ffff, 0x82000800),
   (0x4ce20420, 0xffe3ffff, 0x82000800),
   (0x4ce20421, 0xffe3ffff, 0x82000800),
   (0x4ce30420, 0xffe3ffff, 0x82000800),
   (0x4ce30420, 0xffe3ffff, 0x82000800),
   (0x4ce30421, 0xffe3ffff, 0x82000800),
   (0x4ce30421, 0xffe3ffff, 0x82000800),
   (0x4d800420, 0xffe3ffff, 0x21),
   (0x4d800420, 0xffe3ffff, 0x21),
   (0x4d800421, 0xffe3ffff, 0x21),
   (0x4d800421, 0xffe3ffff, 0x21),
   (0x4d810420, 0xffe3ffff, 0x21),
   (0x4d810420, 0xffe3ffff, 0x21),
   (0x4d810421, 0xffe3ffff, 0x21),
   (0x4d810421, 0xffe3ffff, 0x21),
   (0x4d820420, 0xffe3ffff, 0x21),
   (0x4d820420, 0xffe3ffff, 0x21),
   (0x4d820421, 0xffe3ffff, 0x21),
   (0x4d820421, 0xffe3ffff, 0x21)]

/-- ppc-opc.c:5082-5192. -/
def opcodes15 : List (Nat × Nat × Nat) :=
  [(0x4d830420, 0xffe3ffff, 0x21),
   (0x4d830420, 0xffe3ffff, 0x21),
   (0x4d830420, 0xffe3ffff, 0x21),
   (0x4d830420, 0xffe3ffff, 0x21),
   (0x4d830421, 0xffe3ffff, 0x21),
   (0x4d830421, 0xffe3ffff, 0x21),
   (0x4d830421, 0xffe3ffff, 0x21),
   (0x4d830421, 0xffe3ffff, 0x21),
   (0x4da00420, 0xffe3ffff, 0x21),
   (0x4da00421, 0xffe3ffff, 0x21),
   (0x4da10420, 0xffe3ffff, 0x21),
   (0x4da10421, 0xffe3ffff, 0x21),
   (0x4da20420, 0xffe3ffff, 0x21),
   (0x4da20421, 0xffe3ffff, 0x21),
   (0x4da30420, 0xffe3ffff, 0x21),
   (0x4da30420, 0xffe3ffff, 0x21),
   (0x4da30421, 0xffe3ffff, 0x21),
   (0x4da30421, 0xffe3ffff, 0x21),
   (0x4dc00420, 0xffe3ffff, 0x82000800),
   (0x4dc00421, 0xffe3ffff, 0x82000800),
   (0x4dc10420, 0xffe3ffff, 0x82000800),
   (0x4dc10421, 0xffe3ffff, 0x82000800),
   (0x4dc20420, 0xffe3ffff, 0x82000800),
   (0x4dc20421, 0xffe3ffff, 0x82000800),
   (0x4dc30420, 0xffe3ffff, 0x82000800),
   (0x4dc30420, 0xffe3ffff, 0x82000800),
   (0x4dc30421, 0xffe3ffff, 0x82000800),
   (0x4dc30421, 0xffe3ffff, 0x82000800),
   (0x4de00420, 0xffe3ffff, 0x82000800),
   (0x4de00421, 0xffe3ffff, 0x82000800),
   (0x4de10420, 0xffe3ffff, 0x82000800),
   (0x4de10421, 0xffe3ffff, 0x82000800),
   (0x4de20420, 0xffe3ffff, 0x82000800),
   (0x4de20421, 0xffe3ffff, 0x82000800),
   (0x4de30420, 0xffe3ffff, 0x82000800),
   (0x4de30420, 0xffe3ffff, 0x82000800),
   (0x4de30421, 0xffe3ffff, 0x82000800),
   (0x4de30421, 0xffe3ffff, 0x82000800),
   (0x4c800420, 0xffe0ffff, 0x21),
   (0x4c800420, 0xffe0ffff, 0x21),
   (0x4c800421, 0xffe0ffff, 0x21),
   (0x4c800421, 0xffe0ffff, 0x21),
   (0x4ca00420, 0xffe0ffff, 0x21),
   (0x4ca00421, 0xffe0ffff, 0x21),
   (0x4cc00420, 0xffe0ffff, 0x82000800),
   (0x4cc00421, 0xffe0ffff, 0x82000800),
   (0x4ce00420, 0xffe0ffff, 0x82000800),
   (0x4ce00421, 0xffe0ffff, 0x82000800),
   (0x4d800420, 0xffe0ffff, 0x21),
   (0x4d800420, 0xffe0ffff, 0x21),
   (0x4d800421, 0xffe0ffff, 0x21),
   (0x4d800421, 0xffe0ffff, 0x21),
   (0x4da00420, 0xffe0ffff, 0x21),
   (0x4da00421, 0xffe0ffff, 0x21),
   (0x4dc00420, 0xffe0ffff, 0x82000800),
   (0x4dc00421, 0xffe0ffff, 0x82000800),
   (0x4de00420, 0xffe0ffff, 0x82000800),
   (0x4de00421, 0xffe0ffff, 0x82000800),
   (0x4c000420, 0xfc20ffff, 0x21),
   (0x4c000421, 0xfc20ffff, 0x21),
   (0x4c200420, 0xfc20ffff, 0x21),
   (0x4c200421, 0xfc20ffff, 0x21),
   (0x4c000420, 0xfc00e7ff, 0x21),
   (0x4c000420, 0xfc00ffff, 0x32),
   (0x4c000421, 0xfc00e7ff, 0x21),
   (0x4c000421, 0xfc00ffff, 0x32),
   (0x4c000460, 0xfc20ffff, 0x1000000000),
   (0x4c000461, 0xfc20ffff, 0x1000000000),
   (0x4c200460, 0xfc20ffff, 0x1000000000),
   (0x4c200461, 0xfc20ffff, 0x1000000000),
   (0x4c000460, 0xfc00e7ff, 0x1000000000),
   (0x4c000461, 0xfc00e7ff, 0x1000000000),
   (0x50000000, 0xfc000001, 0x21),
   (0x50000000, 0xfc000001, 0x32),
   (0x50000001, 0xfc000001, 0x21),
   (0x50000001, 0xfc000001, 0x32),
   (0x5400003e, 0xfc0007ff, 0x21),
   (0x5400003e, 0xfc00f83f, 0x21),
   (0x54000000, 0xfc000001, 0x21),
   (0x54000000, 0xfc000001, 0x32),
   (0x5400003f, 0xfc0007ff, 0x21),
   (0x5400003f, 0xfc00f83f, 0x21),
   (0x54000001, 0xfc000001, 0x21),
   (0x54000001, 0xfc000001, 0x32),
   (0x58000000, 0xfc000001, 0x12),
   (0x58000001, 0xfc000001, 0x12),
   (0x5c00003e, 0xfc0007ff, 0x21),
   (0x5c000000, 0xfc000001, 0x21),
   (0x5c000000, 0xfc000001, 0x32),
   (0x5c00003f, 0xfc0007ff, 0x21),
   (0x5c000001, 0xfc000001, 0x21),
   (0x5c000001, 0xfc000001, 0x32),
   (0x60000000, 0xffffffff, 0x21),
   (0x60000000, 0xfc000000, 0x21),
   (0x60000000, 0xfc000000, 0x32),
   (0x64000000, 0xfc000000, 0x21),
   (0x64000000, 0xfc000000, 0x32),
   (0x68000000, 0xffffffff, 0x21),
   (0x68000000, 0xfc000000, 0x21),
   (0x68000000, 0xfc000000, 0x32)]

/-- ppc-opc.c:5194-5319. -/
def opcodes16 : List (Nat × Nat × Nat) :=
  [(0x6c000000, 0xfc000000, 0x21),
   (0x6c000000, 0xfc000000, 0x32),
   (0x70000000, 0xfc000000, 0x21),
   (0x70000000, 0xfc000000, 0x32),
   (0x74000000, 0xfc000000, 0x21),
   (0x74000000, 0xfc000000, 0x32),
   (0x78000000, 0xfc0007fd, 0x88),
   (0x78000000, 0xfc00f81f, 0x88),
   (0x78000000, 0xfc00001d, 0x88),
   (0x78000001, 0xfc0007fd, 0x88),
   (0x78000001, 0xfc00f81f, 0x88),
   (0x78000001, 0xfc00001d, 0x88),
   (0x78000004, 0xfc00001d, 0x88),
   (0x78000005, 0xfc00001d, 0x88),
   (0x78000008, 0xfc00001d, 0x88),
   (0x78000009, 0xfc00001d, 0x88),
   (0x7800000c, 0xfc00001d, 0x88),
   (0x7800000d, 0xfc00001d, 0x88),
   (0x78000010, 0xfc0007ff, 0x88),
   (0x78000010, 0xfc00001f, 0x88),
   (0x78000011, 0xfc0007ff, 0x88),
   (0x78000011, 0xfc00001f, 0x88),
   (0x78000012, 0xfc00001f, 0x88),
   (0x78000013, 0xfc00001f, 0x88),
   (0x7c000000, 0xfc6007ff, 0x21),
   (0x7c200000, 0xfc6007ff, 0x88),
   (0x7c000000, 0xfc4007ff, 0x1),
   (0x7c000000, 0xfc6007ff, 0x32),
   (0x7c200008, 0xffe007ff, 0x21),
   (0x7c200008, 0xffe007ff, 0x32),
   (0x7c400008, 0xffe007ff, 0x21),
   (0x7c400008, 0xffe007ff, 0x32),
   (0x7c800008, 0xffe007ff, 0x21),
   (0x7c800008, 0xffe007ff, 0x32),
   (0x7ca00008, 0xffe007ff, 0x21),
   (0x7ca00008, 0xffe007ff, 0x32),
   (0x7ca00008, 0xffe007ff, 0x21),
   (0x7ca00008, 0xffe007ff, 0x32),
   (0x7cc00008, 0xffe007ff, 0x21),
   (0x7cc00008, 0xffe007ff, 0x32),
   (0x7cc00008, 0xffe007ff, 0x21),
   (0x7cc00008, 0xffe007ff, 0x32),
   (0x7d000008, 0xffe007ff, 0x21),
   (0x7d000008, 0xffe007ff, 0x32),
   (0x7d800008, 0xffe007ff, 0x21),
   (0x7d800008, 0xffe007ff, 0x32),
   (0x7d800008, 0xffe007ff, 0x21),
   (0x7d800008, 0xffe007ff, 0x32),
   (0x7e000008, 0xffe007ff, 0x21),
   (0x7e000008, 0xffe007ff, 0x32),
   (0x7e800008, 0xffe007ff, 0x21),
   (0x7e800008, 0xffe007ff, 0x32),
   (0x7e800008, 0xffe007ff, 0x21),
   (0x7e800008, 0xffe007ff, 0x32),
   (0x7f000008, 0xffe007ff, 0x21),
   (0x7f000008, 0xffe007ff, 0x32),
   (0x7fe00008, 0xffffffff, 0x21),
   (0x7fe00008, 0xffe007ff, 0x21),
   (0x7fe00008, 0xffe007ff, 0x32),
   (0x7c000008, 0xfc0007ff, 0x21),
   (0x7c000008, 0xfc0007ff, 0x32),
   (0x7c00000c, 0xfc0007ff, 0x100),
   (0x7c00000e, 0xfc0007ff, 0x100),
   (0x7c00000e, 0xfc0007ff, 0x4000000),
   (0x7c000010, 0xfc0007ff, 0x21),
   (0x7c000010, 0xfc0007ff, 0x32),
   (0x7c000010, 0xfc0007ff, 0x21),
   (0x7c000011, 0xfc0007ff, 0x21),
   (0x7c000011, 0xfc0007ff, 0x32),
   (0x7c000011, 0xfc0007ff, 0x21),
   (0x7c000012, 0xfc0007ff, 0x88),
   (0x7c000013, 0xfc0007ff, 0x88),
   (0x7c000014, 0xfc0007ff, 0x21),
   (0x7c000014, 0xfc0007ff, 0x32),
   (0x7c000015, 0xfc0007ff, 0x21),
   (0x7c000015, 0xfc0007ff, 0x32),
   (0x7c000016, 0xfc0007ff, 0x1),
   (0x7c000017, 0xfc0007ff, 0x1),
   (0x7c000018, 0xfc0007fe, 0x1000000000),
   (0x7c00001e, 0xfc0007ff, 0x2000),
   (0x7c000024, 0xffe007ff, 0x22000000),
   (0x7c200024, 0xffe007ff, 0x22000000),
   (0x7c600024, 0xffe007ff, 0x22000000),
   (0x7c000024, 0xfc0007ff, 0x22000000),
   (0x7c000026, 0xfc100fff, 0x23),
   (0x7c100026, 0xfc100fff, 0x23),
   (0x7c000028, 0xfc0007fe, 0x1),
   (0x7c00002a, 0xfc0007ff, 0x88),
   (0x7c00002c, 0xfc0007ff, 0x60200400),
   (0x7c00002e, 0xfc0007ff, 0x21),
   (0x7c00002e, 0xfc0007ff, 0x32),
   (0x7c000030, 0xfc0007ff, 0x21),
   (0x7c000030, 0xfc0007ff, 0x32),
   (0x7c000031, 0xfc0007ff, 0x21),
   (0x7c000031, 0xfc0007ff, 0x32),
   (0x7c000034, 0xfc00ffff, 0x21),
   (0x7c000034, 0xfc00ffff, 0x32),
   (0x7c000035, 0xfc00ffff, 0x21),
   (0x7c000035, 0xfc00ffff, 0x32),
   (0x7c000036, 0xfc0007ff, 0x88)]

/-- ppc-opc.c:5320-5470. -/
def opcodes17 : List (Nat × Nat × Nat) :=
  [(0x7c000037, 0xfc0007ff, 0x88),
   (0x7c000038, 0xfc0007ff, 0x23),
   (0x7c000039, 0xfc0007ff, 0x23),
   (0x7c00003a, 0xfc0007ff, 0x12),
   (0x7c00003b, 0xfc0007ff, 0x12),
   (0x7c00003a, 0xfc0007ff, 0x22000000),
   (0x7c00003c, 0xffffffff, 0x1000000000),
   (0x7c00003c, 0xff9fffff, 0x10000000000),
   (0x7c00003e, 0xfc0007ff, 0x22000000),
   (0x7c000040, 0xfc6007ff, 0x21),
   (0x7c200040, 0xfc6007ff, 0x88),
   (0x7c000040, 0xfc4007ff, 0x1),
   (0x7c000040, 0xfc6007ff, 0x32),
   (0x7c00004c, 0xfc0007ff, 0x100),
   (0x7c00004e, 0xfc0007ff, 0x100),
   (0x7c00004e, 0xfc0007ff, 0x4000000),
   (0x7c00005c, 0xfc0007ff, 0x200000000),
   (0x7c00005e, 0xfc0007ff, 0x2000),
   (0x7c00008e, 0xfc0007ff, 0x100),
   (0x7c000094, 0xfc0007ff, 0x400000),
   (0x7c000098, 0xfc0007fe, 0x1000000000),
   (0x7c00009e, 0xfc0007ff, 0x2000),
   (0x7c00001e, 0xfc00003e, 0x80002000),
   (0x7c000050, 0xfc0007ff, 0x1),
   (0x7c000050, 0xfc0007ff, 0x1),
   (0x7c000051, 0xfc0007ff, 0x1),
   (0x7c000051, 0xfc0007ff, 0x1),
   (0x7c000066, 0xfc00fffe, 0x1000000000),
   (0x7c000066, 0xfc00ffff, 0x1000000000),
   (0x7c000067, 0xfc00ffff, 0x1000000000),
   (0x7c000066, 0xfc0007ff, 0x20000000),
   (0x7c000068, 0xfc0007fe, 0x1200000000),
   (0x7c00006a, 0xfc0007ff, 0x88),
   (0x7c00006c, 0xffe007ff, 0x1),
   (0x7c00006e, 0xfc0007ff, 0x21),
   (0x7c00006e, 0xfc0007ff, 0x32),
   (0x7c000074, 0xfc00ffff, 0x88),
   (0x7c000075, 0xfc00ffff, 0x88),
   (0x7c000078, 0xfc0007ff, 0x23),
   (0x7c000079, 0xfc0007ff, 0x23),
   (0x7c20007c, 0xffffffff, 0x22000000),
   (0x7c40007c, 0xffffffff, 0x22000000),
   (0x7c00007c, 0xff9fffff, 0x22000000),
   (0x7c00007e, 0xffe007ff, 0x22000000),
   (0x7c200088, 0xffe007ff, 0x88),
   (0x7c400088, 0xffe007ff, 0x88),
   (0x7c800088, 0xffe007ff, 0x88),
   (0x7ca00088, 0xffe007ff, 0x88),
   (0x7ca00088, 0xffe007ff, 0x88),
   (0x7cc00088, 0xffe007ff, 0x88),
   (0x7cc00088, 0xffe007ff, 0x88),
   (0x7d000088, 0xffe007ff, 0x88),
   (0x7d800088, 0xffe007ff, 0x88),
   (0x7d800088, 0xffe007ff, 0x88),
   (0x7e000088, 0xffe007ff, 0x88),
   (0x7e800088, 0xffe007ff, 0x88),
   (0x7e800088, 0xffe007ff, 0x88),
   (0x7f000088, 0xffe007ff, 0x88),
   (0x7fe00088, 0xffe007ff, 0x88),
   (0x7c000088, 0xfc0007ff, 0x88),
   (0x7c00008e, 0xfc0007ff, 0x4000000),
   (0x7c000092, 0xfc0007ff, 0x88),
   (0x7c000093, 0xfc0007ff, 0x88),
   (0x7c000096, 0xfc0007ff, 0x1),
   (0x7c000097, 0xfc0007ff, 0x1),
   (0x7c00009c, 0xfc0007ff, 0xc0080200),
   (0x7c00009d, 0xfc0007ff, 0xc0080200),
   (0x7c0000a4, 0xfc10ffff, 0x88),
   (0x7c0000a6, 0xfc1fffff, 0x23),
   (0x7c0000a8, 0xfc0007fe, 0x88),
   (0x7c2000ac, 0xffe007ff, 0x100000),
   (0x7c0000ac, 0xff8007ff, 0x1),
   (0x7c0000ae, 0xfc0007ff, 0x23),
   (0x7c0000be, 0xfc0007ff, 0x22000000),
   (0x7c0000c3, 0xfc00ffff, 0x200000000),
   (0x7c0000ce, 0xfc0007ff, 0x100),
   (0x7c0000ce, 0xfc0007ff, 0x4000000),
   (0x7c0000d0, 0xfc00ffff, 0x23),
   (0x7c0000d1, 0xfc00ffff, 0x23),
   (0x7c0000d6, 0xfc0007ff, 0x12),
   (0x7c0000d7, 0xfc0007ff, 0x12),
   (0x7c0000dc, 0xfc0007ff, 0x200000000),
   (0x7c0000e4, 0xfc1f07ff, 0x88),
   (0x7c0000e6, 0xfc00ffff, 0x1000000000),
   (0x7c0000e7, 0xfc00ffff, 0x1000000000),
   (0x7c0000e6, 0xfc00fffe, 0x1000000000),
   (0x7c0000e8, 0xfc0007fe, 0x1200000000),
   (0x7c0000ec, 0xffe007ff, 0x2),
   (0x7c0000ee, 0xfc0007ff, 0x23),
   (0x7c0000f4, 0xfc00ffff, 0x100000),
   (0x7c0000f8, 0xfc0007ff, 0x23),
   (0x7c0000f8, 0xfc0007ff, 0x23),
   (0x7c0000f9, 0xfc0007ff, 0x23),
   (0x7c0000f9, 0xfc0007ff, 0x23),
   (0x7c0000fe, 0xffe007ff, 0x22000000),
   (0x7c000100, 0xfc03ffff, 0x10000000000),
   (0x7c000106, 0xfc1fffff, 0x60000600),
   (0x7c00010c, 0xfc0007ff, 0xc0020000),
   (0x7c00010e, 0xfc0007ff, 0x100),
   (0x7c00010e, 0xfc0007ff, 0x4000000)]

/-- ppc-opc.c:5472-5621. -/
def opcodes18 : List (Nat × Nat × Nat) :=
  [(0x7c000110, 0xfc0007ff, 0x21),
   (0x7c000110, 0xfc0007ff, 0x32),
   (0x7c000111, 0xfc0007ff, 0x21),
   (0x7c000111, 0xfc0007ff, 0x32),
   (0x7c000114, 0xfc0007ff, 0x21),
   (0x7c000114, 0xfc0007ff, 0x32),
   (0x7c000115, 0xfc0007ff, 0x21),
   (0x7c000115, 0xfc0007ff, 0x32),
   (0x7c000118, 0xfc0007fe, 0x1000000000),
   (0x7c00011c, 0xffff07ff, 0x1000000000),
   (0x7c00011c, 0xfc0007ff, 0x20000),
   (0x7c0ff120, 0xfc1fffff, 0x23),
   (0x7c000120, 0xfc100fff, 0x23),
   (0x7c100120, 0xfc100fff, 0x23),
   (0x7c000124, 0xfc1effff, 0x23),
   (0x7c000126, 0xffdfffff, 0x1000000000),
   (0x7c000126, 0xfc0007ff, 0x20000000),
   (0x7c000127, 0xfc0007ff, 0x20000000),
   (0x7c00012a, 0xfc0007ff, 0x88),
   (0x7c00012d, 0xfc0007ff, 0x1),
   (0x7c00012e, 0xfc0007ff, 0x21),
   (0x7c00012e, 0xfc0007ff, 0x32),
   (0x7c000130, 0xfc0007ff, 0x12),
   (0x7c000131, 0xfc0007ff, 0x12),
   (0x7c000132, 0xfc0007ff, 0x12),
   (0x7c000133, 0xfc0007ff, 0x12),
   (0x7c000134, 0xfc00ffff, 0x60400000),
   (0x7c00013a, 0xfc0007ff, 0x22000000),
   (0x7c00013e, 0xfc0007ff, 0x22000000),
   (0x7c000146, 0xffff7fff, 0x60000600),
   (0x7c00014c, 0xfc0007ff, 0xc0020000),
   (0x7c00014e, 0xfc0007ff, 0x100),
   (0x7c00014e, 0xfc0007ff, 0x4000000),
   (0x7c000154, 0xfc0001ff, 0x10000000000),
   (0x7c00015c, 0xffff07ff, 0x1000000000),
   (0x7c00015c, 0xfc0007ff, 0x20000),
   (0x7c000164, 0xfc1effff, 0x88),
   (0x7c000166, 0xfc00fffe, 0x1000000000),
   (0x7c000166, 0xfc00ffff, 0x1000000000),
   (0x7c000167, 0xfc00ffff, 0x1000000000),
   (0x7c000166, 0xfc0007ff, 0x20000000),
   (0x7c00016a, 0xfc0007ff, 0x88),
   (0x7c00016d, 0xfc2007ff, 0x1000000000),
   (0x7c00016c, 0xfc0007ff, 0x20000000),
   (0x7c00016e, 0xfc0007ff, 0x21),
   (0x7c00016e, 0xfc0007ff, 0x32),
   (0x7c000170, 0xfc0007ff, 0x12),
   (0x7c000171, 0xfc0007ff, 0x12),
   (0x7c000174, 0xfc00ffff, 0x20400000),
   (0x7c000180, 0xfc4007ff, 0x10000000000),
   (0x7c00018d, 0xfc0007ff, 0x200000000),
   (0x7c00018e, 0xfc0007ff, 0x100),
   (0x7c00018e, 0xfc0007ff, 0x4000000),
   (0x7c000190, 0xfc00ffff, 0x21),
   (0x7c000190, 0xfc00ffff, 0x32),
   (0x7c000191, 0xfc00ffff, 0x21),
   (0x7c000191, 0xfc00ffff, 0x32),
   (0x7c000194, 0xfc00ffff, 0x21),
   (0x7c000194, 0xfc00ffff, 0x32),
   (0x7c000195, 0xfc00ffff, 0x21),
   (0x7c000195, 0xfc00ffff, 0x32),
   (0x7c00019c, 0xffff07ff, 0x1022000000),
   (0x7c0001a4, 0xfc10ffff, 0x23),
   (0x7c0001a6, 0xfc00ffff, 0x1000000000),
   (0x7c0001a7, 0xfc00ffff, 0x1000000000),
   (0x7c0001a6, 0xfc00fffe, 0x1000000000),
   (0x7c0001a6, 0xfc0007ff, 0x20000000),
   (0x7c0001a9, 0xfc0007ff, 0x20000000),
   (0x7c0001ad, 0xfc0007ff, 0x88),
   (0x7c0001ae, 0xfc0007ff, 0x23),
   (0x7c0001b0, 0xfc0007ff, 0x12),
   (0x7c0001b1, 0xfc0007ff, 0x12),
   (0x7c0001b2, 0xfc0007ff, 0x12),
   (0x7c0001b3, 0xfc0007ff, 0x12),
   (0x7c0001be, 0xfc0007ff, 0x22000000),
   (0x7c0001c0, 0xfc6007ff, 0x10000000000),
   (0x7c0001cc, 0xfc0007ff, 0xc0020000),
   (0x7c0001ce, 0xfc0007ff, 0x100),
   (0x7c0001ce, 0xfc0007ff, 0x4000000),
   (0x7c0001d0, 0xfc00ffff, 0x21),
   (0x7c0001d0, 0xfc00ffff, 0x32),
   (0x7c0001d1, 0xfc00ffff, 0x21),
   (0x7c0001d1, 0xfc00ffff, 0x32),
   (0x7c0001d2, 0xfc0007ff, 0x88),
   (0x7c0001d3, 0xfc0007ff, 0x88),
   (0x7c0001d4, 0xfc00ffff, 0x21),
   (0x7c0001d4, 0xfc00ffff, 0x32),
   (0x7c0001d5, 0xfc00ffff, 0x21),
   (0x7c0001d5, 0xfc00ffff, 0x32),
   (0x7c0001d6, 0xfc0007ff, 0x21),
   (0x7c0001d6, 0xfc0007ff, 0x32),
   (0x7c0001d7, 0xfc0007ff, 0x21),
   (0x7c0001d7, 0xfc0007ff, 0x32),
   (0x7c0001dc, 0xfc0007ff, 0x20000),
   (0x7c0001dc, 0xffff07ff, 0x1022000000),
   (0x7c0001e4, 0xfc1f07ff, 0x1),
   (0x7c0001e4, 0xfc1f07ff, 0x2),
   (0x7c0001e6, 0xfc00ffff, 0x1000000000),
   (0x7c0001e7, 0xfc00ffff, 0x1000000000),
   (0x7c0001e6, 0xfc00fffe, 0x1000000000)]

/-- ppc-opc.c:5623-5763. -/
def opcodes19 : List (Nat × Nat × Nat) :=
  [(0x7e0001ec, 0xffe007ff, 0x10000000),
   (0x7c0001ec, 0xfc0007ff, 0x800),
   (0x7c0001ec, 0xfc0007ff, 0x162000000),
   (0x7c0001ec, 0xfc0007ff, 0x1),
   (0x7c0001ee, 0xfc0007ff, 0x23),
   (0x7c0001f0, 0xfc0007ff, 0x12),
   (0x7c0001f1, 0xfc0007ff, 0x12),
   (0x7c0001f8, 0xfc0007ff, 0x30000000),
   (0x7c0001fe, 0xfc0007ff, 0x22000000),
   (0x7c000206, 0xfc0007ff, 0x60000400),
   (0x7c000207, 0xfc0007ff, 0x20000000),
   (0x7c00020a, 0xfc0007ff, 0x200000000),
   (0x7c00020c, 0xffe007ff, 0x200),
   (0x7c00020e, 0xfc0007ff, 0x200000000),
   (0x7c00020e, 0xfc0007ff, 0x4000000),
   (0x7c000210, 0xfc0007ff, 0x12),
   (0x7c000211, 0xfc0007ff, 0x12),
   (0x7c000212, 0xfc0007ff, 0x10000000000),
   (0x7c000214, 0xfc0007ff, 0x21),
   (0x7c000214, 0xfc0007ff, 0x32),
   (0x7c000215, 0xfc0007ff, 0x21),
   (0x7c000215, 0xfc0007ff, 0x32),
   (0x7c000216, 0xfc0007ff, 0x10000000000),
   (0x7c000218, 0xfc0007fe, 0x10000000000),
   (0x7c00021a, 0xfc0007fe, 0x10000000000),
   (0x7c00021c, 0xffffffff, 0x22000000),
   (0x7c000224, 0xfc1007ff, 0x10000000000),
   (0x7c000224, 0xffdf07ff, 0x800),
   (0x7c000226, 0xfc0007ff, 0x400),
   (0x7c000228, 0xfc2007fe, 0x1000000000),
   (0x7c00022a, 0xfc0007ff, 0x12),
   (0x7c00022b, 0xfc0007ff, 0x12),
   (0x7e00022c, 0xffe007ff, 0x10000000),
   (0x7c00022c, 0xfc0007ff, 0x800),
   (0x7c00022c, 0xfc0007ff, 0x162000000),
   (0x7c00022c, 0xfc0007ff, 0x1),
   (0x7c00022e, 0xfc0007ff, 0x23),
   (0x7c000234, 0xfc00ffff, 0x400000),
   (0x7c000238, 0xfc0007ff, 0x23),
   (0x7c000239, 0xfc0007ff, 0x23),
   (0x7c00023e, 0xfc0007ff, 0x22000000),
   (0x7c000246, 0xfc0007ff, 0x40080000),
   (0x7c00024a, 0xfc0007ff, 0x200000000),
   (0x7c00024e, 0xfc0007ff, 0x200000000),
   (0x7c00025a, 0xfc0007fe, 0x10000000000),
   (0x7c00025c, 0xfc0007ff, 0x1000000000),
   (0x7c000264, 0xfc1007ff, 0x10000000000),
   (0x7c000264, 0xfc1f07ff, 0x10000000),
   (0x7c000264, 0xffdf07ff, 0x1),
   (0x7c000264, 0xffe007ff, 0x2),
   (0x7c000266, 0xfc00fffe, 0x10000000000),
   (0x7c00026a, 0xfc0007ff, 0x10000000000),
   (0x7c00026c, 0xfc0007ff, 0x1),
   (0x7c00026e, 0xfc0007ff, 0x23),
   (0x7c000274, 0xfc00ffff, 0x400000),
   (0x7c000278, 0xfc0007ff, 0x23),
   (0x7c000279, 0xfc0007ff, 0x23),
   (0x7c00027e, 0xfc0007ff, 0x22000000),
   (0x7c001286, 0xfc1fffff, 0x200),
   (0x7c021286, 0xfc1fffff, 0x200),
   (0x7c002286, 0xfc1fffff, 0x200),
   (0x7c012286, 0xfc1fffff, 0x200),
   (0x7c022286, 0xfc1fffff, 0x200),
   (0x7c032286, 0xfc1fffff, 0x200),
   (0x7c042286, 0xfc1fffff, 0x200),
   (0x7c052286, 0xfc1fffff, 0x200),
   (0x7c062286, 0xfc1fffff, 0x200),
   (0x7c072286, 0xfc1fffff, 0x200),
   (0x7c102286, 0xfc1fffff, 0x200),
   (0x7c112286, 0xfc1fffff, 0x200),
   (0x7c002a86, 0xfc1fffff, 0x200),
   (0x7c003286, 0xfc1fffff, 0x200),
   (0x7c013286, 0xfc1fffff, 0x200),
   (0x7c023286, 0xfc1fffff, 0x200),
   (0x7c033286, 0xfc1fffff, 0x200),
   (0x7c043286, 0xfc1fffff, 0x200),
   (0x7c083286, 0xfc1fffff, 0x200),
   (0x7c093286, 0xfc1fffff, 0x200),
   (0x7c0a3286, 0xfc1fffff, 0x200),
   (0x7c0b3286, 0xfc1fffff, 0x200),
   (0x7c0c3286, 0xfc1fffff, 0x200),
   (0x7c103286, 0xfc1fffff, 0x200),
   (0x7c113286, 0xfc1fffff, 0x200),
   (0x7c123286, 0xfc1fffff, 0x200),
   (0x7c133286, 0xfc1fffff, 0x200),
   (0x7c143286, 0xfc1fffff, 0x200),
   (0x7c183286, 0xfc1fffff, 0x200),
   (0x7c193286, 0xfc1fffff, 0x200),
   (0x7c1a3286, 0xfc1fffff, 0x200),
   (0x7c1b3286, 0xfc1fffff, 0x200),
   (0x7c1c3286, 0xfc1fffff, 0x200),
   (0x7c003a86, 0xfc1fffff, 0x200),
   (0x7c000286, 0xfc0007ff, 0x60000600),
   (0x7c000287, 0xfc0007ff, 0x20000000),
   (0x7c00028a, 0xfc0007ff, 0x200000000),
   (0x7c00028c, 0xfc0007ff, 0xc0000000),
   (0x7c000296, 0xfc0007ff, 0x12),
   (0x7c000297, 0xfc0007ff, 0x12),
   (0x7c000298, 0xfc0007fe, 0x8000000),
   (0x7c00029c, 0xfc0007ff, 0x210000)]

/-- ppc-opc.c:5764-5865. -/
def opcodes20 : List (Nat × Nat × Nat) :=
  [(0x7c0002dc, 0xfc0007ff, 0x400000000),
   (0x7c0002a4, 0xffffffff, 0x10000000000),
   (0x7c0002a6, 0xfc1fffff, 0x12),
   (0x7c0102a6, 0xfc1fffff, 0x23),
   (0x7c0402a6, 0xfc1fffff, 0x23),
   (0x7c0502a6, 0xfc1fffff, 0x23),
   (0x7c0602a6, 0xfc1fffff, 0x2),
   (0x7c0802a6, 0xfc1fffff, 0x23),
   (0x7c0902a6, 0xfc1fffff, 0x23),
   (0x7c1102a6, 0xfc1fffff, 0x400000),
   (0x7c1102a6, 0xfc1fffff, 0x2),
   (0x7c1202a6, 0xfc1fffff, 0x23),
   (0x7c1302a6, 0xfc1fffff, 0x23),
   (0x7c1602a6, 0xfc1fffff, 0x80000411),
   (0x7c1802a6, 0xfc1fffff, 0x2),
   (0x7c1902a6, 0xfc1fffff, 0x23),
   (0x7c1a02a6, 0xfc1fffff, 0x23),
   (0x7c1b02a6, 0xfc1fffff, 0x23),
   (0x7c1c02a6, 0xfc1fffff, 0x400000),
   (0x7c100aa6, 0xfc1fffff, 0x400),
   (0x7c1a0aa6, 0xfc1fffff, 0x400),
   (0x7c1b0aa6, 0xfc1fffff, 0x400),
   (0x7c1d0aa6, 0xfc1fffff, 0x400),
   (0x7c1e0aa6, 0xfc1fffff, 0x400),
   (0x7c1f0aa6, 0xfc1fffff, 0x400),
   (0x7c0822a6, 0xfc1fffff, 0x800),
   (0x7c1022a6, 0xfc1fffff, 0x8000000000),
   (0x7c1122a6, 0xfc1fffff, 0x8000000000),
   (0x7c1222a6, 0xfc1fffff, 0x8000000000),
   (0x7c1322a6, 0xfc1fffff, 0x8000000000),
   (0x7c1422a6, 0xfc1fffff, 0x8000000000),
   (0x7c1522a6, 0xfc1fffff, 0x8000000000),
   (0x7c1622a6, 0xfc1fffff, 0x8000000000),
   (0x7c1722a6, 0xfc1fffff, 0x8000000000),
   (0x7c1822a6, 0xfc1fffff, 0x8000000000),
   (0x7c1922a6, 0xfc1fffff, 0x8000000000),
   (0x7c1a22a6, 0xfc1fffff, 0x8000000000),
   (0x7c1b22a6, 0xfc1fffff, 0x8000000000),
   (0x7c1c22a6, 0xfc1fffff, 0x8000000000),
   (0x7c1d22a6, 0xfc1fffff, 0x8000000000),
   (0x7c1e22a6, 0xfc1fffff, 0x8000000000),
   (0x7c1f22a6, 0xfc1fffff, 0x8000000000),
   (0x7c0042a6, 0xfc1fffff, 0x100),
   (0x7c0042a6, 0xfc1fffff, 0x400),
   (0x7c0042a6, 0xfc00ffff, 0x1),
   (0x7c0442a6, 0xfc1fffff, 0x4000400),
   (0x7c0542a6, 0xfc1fffff, 0x4000400),
   (0x7c0642a6, 0xfc1fffff, 0x4000400),
   (0x7c0742a6, 0xfc1fffff, 0x4000400),
   (0x7c0d42a6, 0xfc1fffff, 0xc00),
   (0x7c0002a6, 0xfc0007ff, 0xc00),
   (0x7c0c42a6, 0xfc1fffff, 0xc00),
   (0x7c1042a6, 0xfc1fffff, 0x1),
   (0x7c1142a6, 0xfc1fffff, 0x1),
   (0x7c1242a6, 0xfc1fffff, 0x1),
   (0x7c1342a6, 0xfc1fffff, 0x1),
   (0x7c1842a6, 0xfc1fffff, 0x88),
   (0x7c1a42a6, 0xfc1fffff, 0x1),
   (0x7c1e42a6, 0xfc1fffff, 0x400),
   (0x7c1f42a6, 0xfc1fffff, 0x1),
   (0x7c104aa6, 0xfc1fffff, 0x400),
   (0x7c144aa6, 0xfc1fffff, 0x400),
   (0x7c154aa6, 0xfc1fffff, 0x400),
   (0x7c164aa6, 0xfc1fffff, 0x400),
   (0x7c184aa6, 0xfc1fffff, 0x400),
   (0x7c194aa6, 0xfc1fffff, 0x400),
   (0x7c1a4aa6, 0xfc1fffff, 0x400),
   (0x7c1b4aa6, 0xfc1fffff, 0x400),
   (0x7c1c4aa6, 0xfc1fffff, 0x400),
   (0x7c1d4aa6, 0xfc1fffff, 0x400),
   (0x7c1e4aa6, 0xfc1fffff, 0x400),
   (0x7c1f4aa6, 0xfc1fffff, 0x400),
   (0x7c1052a6, 0xfc1fffff, 0x400),
   (0x7c1452a6, 0xfc1fffff, 0x400),
   (0x7c1062a6, 0xfc1fffff, 0x400),
   (0x7c1162a6, 0xfc1fffff, 0x400),
   (0x7c1262a6, 0xfc1fffff, 0x400),
   (0x7c1362a6, 0xfc1fffff, 0x400),
   (0x7c1462a6, 0xfc1fffff, 0x400),
   (0x7c1562a6, 0xfc1fffff, 0x400),
   (0x7c1662a6, 0xfc1fffff, 0x400),
   (0x7c1762a6, 0xfc1fffff, 0x400),
   (0x7c1862a6, 0xfc1fffff, 0x400),
   (0x7c1962a6, 0xfc1fffff, 0x400),
   (0x7c1a62a6, 0xfc1fffff, 0x400),
   (0x7c1b62a6, 0xfc1fffff, 0x400),
   (0x7c1c62a6, 0xfc1fffff, 0x400),
   (0x7c1d62a6, 0xfc1fffff, 0x400),
   (0x7c1e62a6, 0xfc1fffff, 0x400),
   (0x7c1f62a6, 0xfc1fffff, 0x400),
   (0x7c0082a6, 0xfc1fffff, 0x1000),
   (0x7c0182a6, 0xfc1fffff, 0x8000),
   (0x7c0282a6, 0xfc1fffff, 0x8000),
   (0x7c1082a6, 0xfc1fffff, 0x200001000),
   (0x7c1182a6, 0xfc1fffff, 0x200001000),
   (0x7c1282a6, 0xfc1fffff, 0x1000),
   (0x7c1382a6, 0xfc1fffff, 0x10000),
   (0x7c1082a6, 0xfc19f7ff, 0x1),
   (0x7c1182a6, 0xfc19f7ff, 0x1),
   (0x7c1882a6, 0xfc19f7ff, 0x1)]

/-- ppc-opc.c:5866-5965. -/
def opcodes21 : List (Nat × Nat × Nat) :=
  [(0x7c1982a6, 0xfc19f7ff, 0x1),
   (0x7c108aa6, 0xfc1fffff, 0x8000000000),
   (0x7c118aa6, 0xfc1fffff, 0x8000000000),
   (0x7c128aa6, 0xfc1fffff, 0x8000000000),
   (0x7c188aa6, 0xfc1fffff, 0x8000000000),
   (0x7c198aa6, 0xfc1fffff, 0x8000000000),
   (0x7c1a8aa6, 0xfc1fffff, 0x8000000000),
   (0x7c1a8aa6, 0xfc1fffff, 0x40000),
   (0x7c1b8aa6, 0xfc1fffff, 0x40000),
   (0x7c1c8aa6, 0xfc1fffff, 0x40000),
   (0x7c1d8aa6, 0xfc1fffff, 0x40000),
   (0x7c169aa6, 0xfc1fffff, 0x8000000000),
   (0x7c179aa6, 0xfc1fffff, 0x8000000000),
   (0x7c1e9aa6, 0xfc1fffff, 0x8000000000),
   (0x7c03c2a6, 0xfc1fffff, 0x10000000000),
   (0x7c03c2a6, 0xfc1fffff, 0x10000000000),
   (0x7c04c2a6, 0xfc1fffff, 0x10000000000),
   (0x7c04c2a6, 0xfc1fffff, 0x10000000000),
   (0x7c05c2a6, 0xfc1fffff, 0x10000000000),
   (0x7c05c2a6, 0xfc1fffff, 0x10000000000),
   (0x7c06c2a6, 0xfc1fffff, 0x10000000000),
   (0x7c06c2a6, 0xfc1fffff, 0x10000000000),
   (0x7c07c2a6, 0xfc1fffff, 0x10000000000),
   (0x7c07c2a6, 0xfc1fffff, 0x10000000000),
   (0x7c08c2a6, 0xfc1fffff, 0x10000000000),
   (0x7c08c2a6, 0xfc1fffff, 0x10000000000),
   (0x7c10c2a6, 0xfc1fffff, 0x8000000000),
   (0x7c12c2a6, 0xfc1fffff, 0x8000000000),
   (0x7c13c2a6, 0xfc1fffff, 0x8000000000),
   (0x7c15c2a6, 0xfc1fffff, 0x8000000000),
   (0x7c16c2a6, 0xfc1fffff, 0x8000000000),
   (0x7c18c2a6, 0xfc1fffff, 0x8000000000),
   (0x7c19c2a6, 0xfc1fffff, 0x8000000000),
   (0x7c1ac2a6, 0xfc1fffff, 0x8000000000),
   (0x7c1bc2a6, 0xfc1fffff, 0x8000000000),
   (0x7c1cc2a6, 0xfc1fffff, 0x8000000000),
   (0x7c1dc2a6, 0xfc1fffff, 0x8000000000),
   (0x7c1ec2a6, 0xfc1fffff, 0x8000000000),
   (0x7c1fc2a6, 0xfc1fffff, 0x8000000000),
   (0x7c10caa6, 0xfc1fffff, 0x8000000000),
   (0x7c11caa6, 0xfc1fffff, 0x8000000000),
   (0x7c12caa6, 0xfc1fffff, 0x8000000000),
   (0x7c18caa6, 0xfc1fffff, 0x8000000000),
   (0x7c19caa6, 0xfc1fffff, 0x8000000000),
   (0x7c1acaa6, 0xfc1fffff, 0x8000000000),
   (0x7c10daa6, 0xfc1fffff, 0x80000000),
   (0x7c11daa6, 0xfc1fffff, 0x80000000),
   (0x7c12daa6, 0xfc1fffff, 0x80000000),
   (0x7c13daa6, 0xfc1fffff, 0x80000000),
   (0x7c14daa6, 0xfc1fffff, 0x80000000),
   (0x7c18daa6, 0xfc1fffff, 0x80000000),
   (0x7c00e2a6, 0xfc1fffff, 0x10000000),
   (0x7c02e2a6, 0xfc1fffff, 0x10000000),
   (0x7c10e2a6, 0xfc18ffff, 0x1000000),
   (0x7c18e2a6, 0xfc1fffff, 0x2000000000),
   (0x7c19e2a6, 0xfc1fffff, 0x2000000000),
   (0x7c1ae2a6, 0xfc1fffff, 0x2000000000),
   (0x7c1be2a6, 0xfc1fffff, 0x2000000000),
   (0x7c1be2a6, 0xfc1fffff, 0x80000000),
   (0x7c1ce2a6, 0xfc1fffff, 0x80000000),
   (0x7c1de2a6, 0xfc1fffff, 0x80000000),
   (0x7c1fe2a6, 0xfc1fffff, 0x80000000),
   (0x7c08eaa6, 0xfc1fffff, 0x2000000000),
   (0x7c09eaa6, 0xfc1fffff, 0x2000000000),
   (0x7c0aeaa6, 0xfc1fffff, 0x2000000000),
   (0x7c0beaa6, 0xfc1fffff, 0x2000000000),
   (0x7c0ceaa6, 0xfc1fffff, 0x2000000000),
   (0x7c0deaa6, 0xfc1fffff, 0x2000000000),
   (0x7c0eeaa6, 0xfc1fffff, 0x2000000000),
   (0x7c10eaa6, 0xfc1fffff, 0x200),
   (0x7c11eaa6, 0xfc1fffff, 0x200),
   (0x7c12eaa6, 0xfc1fffff, 0x80000000),
   (0x7c13eaa6, 0xfc1fffff, 0x84000000),
   (0x7c14eaa6, 0xfc1fffff, 0x4000000),
   (0x7c15eaa6, 0xfc1fffff, 0x4000000),
   (0x7c16eaa6, 0xfc1fffff, 0x4000000),
   (0x7c17eaa6, 0xfc1fffff, 0x4000000),
   (0x7c18eaa6, 0xfc1fffff, 0x2000000000),
   (0x7c19eaa6, 0xfc1fffff, 0x2000000000),
   (0x7c19eaa6, 0xfc1fffff, 0x200),
   (0x7c1aeaa6, 0xfc1fffff, 0x200),
   (0x7c1aeaa6, 0xfc1fffff, 0x2000000000),
   (0x7c1beaa6, 0xfc1fffff, 0x2000000000),
   (0x7c1beaa6, 0xfc1fffff, 0x4000000),
   (0x7c1ceaa6, 0xfc1fffff, 0x2000000000),
   (0x7c1ceaa6, 0xfc1fffff, 0x4000000),
   (0x7c1deaa6, 0xfc1fffff, 0x4000000),
   (0x7c1deaa6, 0xfc1fffff, 0x2000000000),
   (0x7c1eeaa6, 0xfc1fffff, 0x2000000000),
   (0x7c13f2a6, 0xfc1fffff, 0x80000200),
   (0x7c14f2a6, 0xfc1fffff, 0x200),
   (0x7c15f2a6, 0xfc1fffff, 0x200),
   (0x7c16f2a6, 0xfc1fffff, 0x200),
   (0x7c17f2a6, 0xfc1fffff, 0x200),
   (0x7c18f2a6, 0xfc1fffff, 0x200),
   (0x7c1af2a6, 0xfc1fffff, 0x200),
   (0x7c1bf2a6, 0xfc1fffff, 0x200),
   (0x7c1cf2a6, 0xfc1fffff, 0x200),
   (0x7c1df2a6, 0xfc1fffff, 0x200),
   (0x7c1ef2a6, 0xfc1fffff, 0x200)]

/-- ppc-opc.c:5966-6107. -/
def opcodes22 : List (Nat × Nat × Nat) :=
  [(0x7c1ff2a6, 0xfc1fffff, 0x200),
   (0x7c10faa6, 0xfc1fffff, 0x200),
   (0x7c10faa6, 0xfc1fffff, 0x2000000000),
   (0x7c11faa6, 0xfc1fffff, 0x2000000000),
   (0x7c12faa6, 0xfc1fffff, 0x4000000),
   (0x7c12faa6, 0xfc1fffff, 0x2000000000),
   (0x7c13faa6, 0xfc1fffff, 0x2000000000),
   (0x7c13faa6, 0xfc1fffff, 0x80000000),
   (0x7c14faa6, 0xfc1fffff, 0x200),
   (0x7c15faa6, 0xfc1fffff, 0x200),
   (0x7c15faa6, 0xfc1fffff, 0x2000000000),
   (0x7c16faa6, 0xfc1fffff, 0x200),
   (0x7c17faa6, 0xfc1fffff, 0x200),
   (0x7c19faa6, 0xfc1fffff, 0x2000000000),
   (0x7c1afaa6, 0xfc1fffff, 0x200),
   (0x7c1bfaa6, 0xfc1fffff, 0x200),
   (0x7c1bfaa6, 0xfc1fffff, 0x2000000000),
   (0x7c1cfaa6, 0xfc1fffff, 0x200),
   (0x7c1cfaa6, 0xfc1fffff, 0x2000000000),
   (0x7c1dfaa6, 0xfc1fffff, 0x200),
   (0x7c1dfaa6, 0xfc1fffff, 0x2000000000),
   (0x7c1efaa6, 0xfc1fffff, 0x200),
   (0x7c1efaa6, 0xfc1fffff, 0x2000000000),
   (0x7c1ffaa6, 0xfc1fffff, 0x200),
   (0x7c0002a6, 0xfc0007ff, 0x23),
   (0x7c0002aa, 0xfc0007ff, 0x88),
   (0x7c0002ac, 0xfe0007fe, 0x100),
   (0x7c0002ae, 0xfc0007ff, 0x23),
   (0x7c0002ce, 0xfc0007ff, 0x100),
   (0x7c0002d0, 0xfc00ffff, 0x12),
   (0x7c0002d1, 0xfc00ffff, 0x12),
   (0x7c0002d6, 0xfc0007ff, 0x12),
   (0x7c0002d7, 0xfc0007ff, 0x12),
   (0x7c0002d8, 0xfc0007fe, 0x10000000000),
   (0x7c0002e4, 0xffffffff, 0x1),
   (0x7c0d42e6, 0xfc1fffff, 0x1),
   (0x7c0002e6, 0xfc0007ff, 0x1),
   (0x7c0c42e6, 0xfc1fffff, 0x1),
   (0x7c0002ea, 0xfc0007ff, 0x88),
   (0x7c0002ec, 0xfe0007fe, 0x100),
   (0x7c0002ee, 0xfc0007ff, 0x23),
   (0x7c0002f4, 0xfc00ffff, 0x30000000),
   (0x7c000306, 0xfc0007ff, 0x60000400),
   (0x7c000307, 0xfc0007ff, 0x20000000),
   (0x7c00030a, 0xfc0007ff, 0x200000000),
   (0x7c00030c, 0xfc0007ff, 0xc0020000),
   (0x7c00030e, 0xfc0007ff, 0x4000000),
   (0x7c000312, 0xfc0007ff, 0x30000000),
   (0x7c000313, 0xfc0007ff, 0x30000000),
   (0x7c000316, 0xfc0007ff, 0x30000000),
   (0x7c000317, 0xfc0007ff, 0x30000000),
   (0x7c000318, 0xfc0007fe, 0x10000000000),
   (0x7c00031a, 0xfc0007fe, 0x10000000000),
   (0x7c00031c, 0xfc0007ff, 0x20000),
   (0x7c000324, 0xfc1f07ff, 0x88),
   (0x7c000326, 0xfc00fffe, 0x10000000000),
   (0x7c000329, 0xfc0007ff, 0x1000000000),
   (0x7c00032c, 0xfc0007ff, 0x30000000),
   (0x7c00032d, 0xfc0007ff, 0x30000000),
   (0x7c00032e, 0xfc0007ff, 0x23),
   (0x7c000338, 0xfc0007ff, 0x23),
   (0x7c000339, 0xfc0007ff, 0x23),
   (0x7c00033e, 0xfc0007ff, 0x22000000),
   (0x7c000346, 0xfc0007ff, 0x40080000),
   (0x7c00034a, 0xfc0007ff, 0x200000000),
   (0x7c00034d, 0xfc0007ff, 0x200000000),
   (0x7c000352, 0xfc0007ff, 0x30000000),
   (0x7c000353, 0xfc0007ff, 0x30000000),
   (0x7c000356, 0xfc0007ff, 0x30000000),
   (0x7c000357, 0xfc0007ff, 0x30000000),
   (0x7c00035a, 0xfc0007fe, 0x10000000000),
   (0x7c00035c, 0xffffffff, 0x1000000000),
   (0x7c000364, 0xffff07ff, 0x88),
   (0x7c000366, 0xfc0007fe, 0x10000000000),
   (0x7c00036c, 0xfc0007ff, 0x1),
   (0x7c00036e, 0xfc0007ff, 0x23),
   (0x7f9ce378, 0xffffffff, 0x2000000),
   (0x7f5ad378, 0xffffffff, 0x200000000),
   (0x7f7bdb78, 0xffffffff, 0x10000000),
   (0x7fbdeb78, 0xffffffff, 0x10000000),
   (0x7fdef378, 0xffffffff, 0x10000000),
   (0x7c000378, 0xfc0007ff, 0x23),
   (0x7c000378, 0xfc0007ff, 0x23),
   (0x7c000379, 0xfc0007ff, 0x23),
   (0x7c000379, 0xfc0007ff, 0x23),
   (0x7c001386, 0xfc1fffff, 0x200),
   (0x7c021386, 0xfc1fffff, 0x200),
   (0x7c002386, 0xfc1fffff, 0x200),
   (0x7c012386, 0xfc1fffff, 0x200),
   (0x7c022386, 0xfc1fffff, 0x200),
   (0x7c032386, 0xfc1fffff, 0x200),
   (0x7c042386, 0xfc1fffff, 0x200),
   (0x7c052386, 0xfc1fffff, 0x200),
   (0x7c062386, 0xfc1fffff, 0x200),
   (0x7c072386, 0xfc1fffff, 0x200),
   (0x7c102386, 0xfc1fffff, 0x200),
   (0x7c112386, 0xfc1fffff, 0x200),
   (0x7c002b86, 0xfc1fffff, 0x200),
   (0x7c003386, 0xfc1fffff, 0x200),
   (0x7c013386, 0xfc1fffff, 0x200)]

/-- ppc-opc.c:6108-6214. -/
def opcodes23 : List (Nat × Nat × Nat) :=
  [(0x7c023386, 0xfc1fffff, 0x200),
   (0x7c033386, 0xfc1fffff, 0x200),
   (0x7c043386, 0xfc1fffff, 0x200),
   (0x7c083386, 0xfc1fffff, 0x200),
   (0x7c093386, 0xfc1fffff, 0x200),
   (0x7c0a3386, 0xfc1fffff, 0x200),
   (0x7c0b3386, 0xfc1fffff, 0x200),
   (0x7c0c3386, 0xfc1fffff, 0x200),
   (0x7c103386, 0xfc1fffff, 0x200),
   (0x7c113386, 0xfc1fffff, 0x200),
   (0x7c123386, 0xfc1fffff, 0x200),
   (0x7c133386, 0xfc1fffff, 0x200),
   (0x7c143386, 0xfc1fffff, 0x200),
   (0x7c183386, 0xfc1fffff, 0x200),
   (0x7c193386, 0xfc1fffff, 0x200),
   (0x7c1a3386, 0xfc1fffff, 0x200),
   (0x7c1b3386, 0xfc1fffff, 0x200),
   (0x7c1c3386, 0xfc1fffff, 0x200),
   (0x7c003b86, 0xfc1fffff, 0x200),
   (0x7c000386, 0xfc0007ff, 0x60000600),
   (0x7c000387, 0xfc0007ff, 0x20000000),
   (0x7c00038a, 0xfc0007ff, 0x200000000),
   (0x7c00038c, 0xffe007ff, 0xe0080200),
   (0x7c00038c, 0xfc1fffff, 0x60000000),
   (0x7c000392, 0xfc0007ff, 0x88),
   (0x7c000393, 0xfc0007ff, 0x88),
   (0x7c000396, 0xfc0007ff, 0x1),
   (0x7c000397, 0xfc0007ff, 0x1),
   (0x7c00039c, 0xfc0007ff, 0x210000),
   (0x7c0003dc, 0xfc0007ff, 0x400000000),
   (0x7c0003a4, 0xfc1f07ff, 0x10000000000),
   (0x7c0003a6, 0xfc1fffff, 0x12),
   (0x7c0103a6, 0xfc1fffff, 0x23),
   (0x7c0803a6, 0xfc1fffff, 0x23),
   (0x7c0903a6, 0xfc1fffff, 0x23),
   (0x7c1103a6, 0xfc1fffff, 0x400000),
   (0x7c1103a6, 0xfc1fffff, 0x2),
   (0x7c1203a6, 0xfc1fffff, 0x23),
   (0x7c1303a6, 0xfc1fffff, 0x23),
   (0x7c1403a6, 0xfc1fffff, 0x23),
   (0x7c1503a6, 0xfc1fffff, 0x23),
   (0x7c1603a6, 0xfc1fffff, 0x23),
   (0x7c1803a6, 0xfc1fffff, 0x2),
   (0x7c1903a6, 0xfc1fffff, 0x23),
   (0x7c1a03a6, 0xfc1fffff, 0x23),
   (0x7c1b03a6, 0xfc1fffff, 0x23),
   (0x7c1c03a6, 0xfc1fffff, 0x400000),
   (0x7c100ba6, 0xfc1fffff, 0x400),
   (0x7c160ba6, 0xfc1fffff, 0x400),
   (0x7c1a0ba6, 0xfc1fffff, 0x400),
   (0x7c1b0ba6, 0xfc1fffff, 0x400),
   (0x7c1d0ba6, 0xfc1fffff, 0x400),
   (0x7c1e0ba6, 0xfc1fffff, 0x400),
   (0x7c1f0ba6, 0xfc1fffff, 0x400),
   (0x7c1023a6, 0xfc1fffff, 0x8000000000),
   (0x7c1123a6, 0xfc1fffff, 0x8000000000),
   (0x7c1223a6, 0xfc1fffff, 0x8000000000),
   (0x7c1323a6, 0xfc1fffff, 0x8000000000),
   (0x7c1423a6, 0xfc1fffff, 0x8000000000),
   (0x7c1523a6, 0xfc1fffff, 0x8000000000),
   (0x7c1623a6, 0xfc1fffff, 0x8000000000),
   (0x7c1723a6, 0xfc1fffff, 0x8000000000),
   (0x7c1823a6, 0xfc1fffff, 0x800),
   (0x7c1823a6, 0xfc1fffff, 0x8000000000),
   (0x7c1923a6, 0xfc1fffff, 0x8000000000),
   (0x7c1a23a6, 0xfc1fffff, 0x8000000000),
   (0x7c1b23a6, 0xfc1fffff, 0x8000000000),
   (0x7c1c23a6, 0xfc1fffff, 0x8000000000),
   (0x7c1d23a6, 0xfc1fffff, 0x8000000000),
   (0x7c1e23a6, 0xfc1fffff, 0x8000000000),
   (0x7c1f23a6, 0xfc1fffff, 0x8000000000),
   (0x7c0043a6, 0xfc1fffff, 0x100),
   (0x7c0043a6, 0xfc1fffff, 0x400),
   (0x7c0043a6, 0xfc00ffff, 0x1),
   (0x7c1043a6, 0xfc1fffff, 0x1),
   (0x7c1143a6, 0xfc1fffff, 0x1),
   (0x7c1243a6, 0xfc1fffff, 0x1),
   (0x7c1343a6, 0xfc1fffff, 0x1),
   (0x7c1443a6, 0xfc1fffff, 0x4000400),
   (0x7c1543a6, 0xfc1fffff, 0x4000400),
   (0x7c1643a6, 0xfc1fffff, 0x4000400),
   (0x7c1743a6, 0xfc1fffff, 0x4000400),
   (0x7c1843a6, 0xfc1fffff, 0x88),
   (0x7c1a43a6, 0xfc1fffff, 0x1),
   (0x7c1c43a6, 0xfc1fffff, 0x1),
   (0x7c1d43a6, 0xfc1fffff, 0x1),
   (0x7c104ba6, 0xfc1fffff, 0x400),
   (0x7c144ba6, 0xfc1fffff, 0x400),
   (0x7c154ba6, 0xfc1fffff, 0x400),
   (0x7c164ba6, 0xfc1fffff, 0x400),
   (0x7c184ba6, 0xfc1fffff, 0x400),
   (0x7c194ba6, 0xfc1fffff, 0x400),
   (0x7c1a4ba6, 0xfc1fffff, 0x400),
   (0x7c1b4ba6, 0xfc1fffff, 0x400),
   (0x7c1c4ba6, 0xfc1fffff, 0x400),
   (0x7c1d4ba6, 0xfc1fffff, 0x400),
   (0x7c1e4ba6, 0xfc1fffff, 0x400),
   (0x7c1f4ba6, 0xfc1fffff, 0x400),
   (0x7c1053a6, 0xfc1fffff, 0x400),
   (0x7c1453a6, 0xfc1fffff, 0x400)]

/-- ppc-opc.c:6215-6314. -/
def opcodes24 : List (Nat × Nat × Nat) :=
  [(0x7c1063a6, 0xfc1fffff, 0x400),
   (0x7c1163a6, 0xfc1fffff, 0x400),
   (0x7c1263a6, 0xfc1fffff, 0x400),
   (0x7c1363a6, 0xfc1fffff, 0x400),
   (0x7c1463a6, 0xfc1fffff, 0x400),
   (0x7c1563a6, 0xfc1fffff, 0x400),
   (0x7c1663a6, 0xfc1fffff, 0x400),
   (0x7c1763a6, 0xfc1fffff, 0x400),
   (0x7c1863a6, 0xfc1fffff, 0x400),
   (0x7c1963a6, 0xfc1fffff, 0x400),
   (0x7c1a63a6, 0xfc1fffff, 0x400),
   (0x7c1b63a6, 0xfc1fffff, 0x400),
   (0x7c1c63a6, 0xfc1fffff, 0x400),
   (0x7c1d63a6, 0xfc1fffff, 0x400),
   (0x7c1e63a6, 0xfc1fffff, 0x400),
   (0x7c1f63a6, 0xfc1fffff, 0x400),
   (0x7c0083a6, 0xfc1fffff, 0x1000),
   (0x7c0183a6, 0xfc1fffff, 0x8000),
   (0x7c0283a6, 0xfc1fffff, 0x8000),
   (0x7c1083a6, 0xfc1fffff, 0x200001000),
   (0x7c1183a6, 0xfc1fffff, 0x200001000),
   (0x7c1283a6, 0xfc1fffff, 0x1000),
   (0x7c1383a6, 0xfc1fffff, 0x10000),
   (0x7c1083a6, 0xfc19f7ff, 0x1),
   (0x7c1183a6, 0xfc19f7ff, 0x1),
   (0x7c1883a6, 0xfc19f7ff, 0x1),
   (0x7c1983a6, 0xfc19f7ff, 0x1),
   (0x7c1a8ba6, 0xfc1fffff, 0x40000),
   (0x7c1b8ba6, 0xfc1fffff, 0x40000),
   (0x7c1c8ba6, 0xfc1fffff, 0x40000),
   (0x7c03c3a6, 0xfc1fffff, 0x10000000000),
   (0x7c04c3a6, 0xfc1fffff, 0x10000000000),
   (0x7c05c3a6, 0xfc1fffff, 0x10000000000),
   (0x7c06c3a6, 0xfc1fffff, 0x10000000000),
   (0x7c07c3a6, 0xfc1fffff, 0x10000000000),
   (0x7c08c3a6, 0xfc1fffff, 0x10000000000),
   (0x7c10dba6, 0xfc1fffff, 0x80000000),
   (0x7c11dba6, 0xfc1fffff, 0x80000000),
   (0x7c12dba6, 0xfc1fffff, 0x80000000),
   (0x7c13dba6, 0xfc1fffff, 0x80000000),
   (0x7c14dba6, 0xfc1fffff, 0x80000000),
   (0x7c18dba6, 0xfc1fffff, 0x80000000),
   (0x7c00e3a6, 0xfc1fffff, 0x10000000),
   (0x7c02e3a6, 0xfc1fffff, 0x10000000),
   (0x7c10e3a6, 0xfc18ffff, 0x1000000),
   (0x7c18e3a6, 0xfc1fffff, 0x2000000000),
   (0x7c19e3a6, 0xfc1fffff, 0x2000000000),
   (0x7c1ae3a6, 0xfc1fffff, 0x2000000000),
   (0x7c1be3a6, 0xfc1fffff, 0x2000000000),
   (0x7c08eba6, 0xfc1fffff, 0x2000000000),
   (0x7c09eba6, 0xfc1fffff, 0x2000000000),
   (0x7c0aeba6, 0xfc1fffff, 0x2000000000),
   (0x7c0beba6, 0xfc1fffff, 0x2000000000),
   (0x7c0ceba6, 0xfc1fffff, 0x2000000000),
   (0x7c0deba6, 0xfc1fffff, 0x2000000000),
   (0x7c0eeba6, 0xfc1fffff, 0x2000000000),
   (0x7c10eba6, 0xfc1fffff, 0x200),
   (0x7c11eba6, 0xfc1fffff, 0x200),
   (0x7c12eba6, 0xfc1fffff, 0x80000000),
   (0x7c13eba6, 0xfc1fffff, 0x84000000),
   (0x7c14eba6, 0xfc1fffff, 0x4000000),
   (0x7c15eba6, 0xfc1fffff, 0x4000000),
   (0x7c16eba6, 0xfc1fffff, 0x4000000),
   (0x7c17eba6, 0xfc1fffff, 0x4000000),
   (0x7c18eba6, 0xfc1fffff, 0x2000000000),
   (0x7c19eba6, 0xfc1fffff, 0x2000000000),
   (0x7c19eba6, 0xfc1fffff, 0x200),
   (0x7c1aeba6, 0xfc1fffff, 0x200),
   (0x7c1aeba6, 0xfc1fffff, 0x2000000000),
   (0x7c1beba6, 0xfc1fffff, 0x2000000000),
   (0x7c1beba6, 0xfc1fffff, 0x4000000),
   (0x7c1ceba6, 0xfc1fffff, 0x2000000000),
   (0x7c1ceba6, 0xfc1fffff, 0x4000000),
   (0x7c1deba6, 0xfc1fffff, 0x4000000),
   (0x7c1deba6, 0xfc1fffff, 0x2000000000),
   (0x7c1eeba6, 0xfc1fffff, 0x2000000000),
   (0x7c13f3a6, 0xfc1fffff, 0x200),
   (0x7c14f3a6, 0xfc1fffff, 0x200),
   (0x7c15f3a6, 0xfc1fffff, 0x200),
   (0x7c16f3a6, 0xfc1fffff, 0x200),
   (0x7c17f3a6, 0xfc1fffff, 0x200),
   (0x7c18f3a6, 0xfc1fffff, 0x200),
   (0x7c1af3a6, 0xfc1fffff, 0x200),
   (0x7c1bf3a6, 0xfc1fffff, 0x200),
   (0x7c1cf3a6, 0xfc1fffff, 0x200),
   (0x7c1df3a6, 0xfc1fffff, 0x200),
   (0x7c1ef3a6, 0xfc1fffff, 0x200),
   (0x7c1ff3a6, 0xfc1fffff, 0x200),
   (0x7c10fba6, 0xfc1fffff, 0x200),
   (0x7c10fba6, 0xfc1fffff, 0x2000000000),
   (0x7c11fba6, 0xfc1fffff, 0x2000000000),
   (0x7c12fba6, 0xfc1fffff, 0x4000000),
   (0x7c12fba6, 0xfc1fffff, 0x2000000000),
   (0x7c13fba6, 0xfc1fffff, 0x2000000000),
   (0x7c13fba6, 0xfc1fffff, 0x80000000),
   (0x7c14fba6, 0xfc1fffff, 0x200),
   (0x7c15fba6, 0xfc1fffff, 0x200),
   (0x7c15fba6, 0xfc1fffff, 0x2000000000),
   (0x7c16fba6, 0xfc1fffff, 0x200),
   (0x7c17fba6, 0xfc1fffff, 0x200)]

/-- ppc-opc.c:6315-6462. -/
def opcodes25 : List (Nat × Nat × Nat) :=
  [(0x7c19fba6, 0xfc1fffff, 0x2000000000),
   (0x7c1afba6, 0xfc1fffff, 0x200),
   (0x7c1bfba6, 0xfc1fffff, 0x200),
   (0x7c1bfba6, 0xfc1fffff, 0x2000000000),
   (0x7c1cfba6, 0xfc1fffff, 0x200),
   (0x7c1cfba6, 0xfc1fffff, 0x2000000000),
   (0x7c1dfba6, 0xfc1fffff, 0x200),
   (0x7c1dfba6, 0xfc1fffff, 0x2000000000),
   (0x7c1efba6, 0xfc1fffff, 0x200),
   (0x7c1efba6, 0xfc1fffff, 0x2000000000),
   (0x7c1ffba6, 0xfc1fffff, 0x200),
   (0x7c0003a6, 0xfc0007ff, 0x23),
   (0x7c0003ac, 0xffe007ff, 0x1),
   (0x7c0003b8, 0xfc0007ff, 0x23),
   (0x7c0003b9, 0xfc0007ff, 0x23),
   (0x7c0003c6, 0xffe007ff, 0x2000000),
   (0x7c0003cc, 0xfc0007ff, 0x80200),
   (0x7c0003cc, 0xfc0007ff, 0xc0020000),
   (0x7c0003ce, 0xfc0007ff, 0x100),
   (0x7c0003d0, 0xfc00ffff, 0x12),
   (0x7c0003d1, 0xfc00ffff, 0x12),
   (0x7c0003d2, 0xfc0007ff, 0x88),
   (0x7c0003d3, 0xfc0007ff, 0x88),
   (0x7c0003d6, 0xfc0007ff, 0x1),
   (0x7c0003d7, 0xfc0007ff, 0x1),
   (0x7c0003dc, 0xfc0007ff, 0x20000),
   (0x7c0003e4, 0xff1fffff, 0x400000),
   (0x7c0003e4, 0xffffffff, 0x88),
   (0x7c0003ec, 0xfc00ffff, 0x2),
   (0x7c0003f4, 0xfc00ffff, 0x30000000),
   (0x7c0003f8, 0xfc0007ff, 0x60400000),
   (0x7c000400, 0xfc7fffff, 0x23),
   (0x7c000404, 0xfc0007ff, 0x20000000000),
   (0x7c000406, 0xfc0007ff, 0x20002000000),
   (0x7c00040c, 0xfc0007ff, 0x8000),
   (0x7c00040e, 0xfc0007ff, 0x800000),
   (0x7c00040e, 0xfc0007ff, 0x4000000),
   (0x7c000410, 0xfc0007ff, 0x21),
   (0x7c000410, 0xfc0007ff, 0x32),
   (0x7c000410, 0xfc0007ff, 0x21),
   (0x7c000411, 0xfc0007ff, 0x21),
   (0x7c000411, 0xfc0007ff, 0x32),
   (0x7c000411, 0xfc0007ff, 0x21),
   (0x7c000414, 0xfc0007ff, 0x21),
   (0x7c000414, 0xfc0007ff, 0x32),
   (0x7c000415, 0xfc0007ff, 0x21),
   (0x7c000415, 0xfc0007ff, 0x32),
   (0x7c000418, 0xfc0007fe, 0x1000000000),
   (0x7c000426, 0xfc00ffff, 0x12),
   (0x7c000428, 0xfc0007ff, 0x30800000),
   (0x7c00042a, 0xfc0007ff, 0x21),
   (0x7c00042a, 0xfc0007ff, 0x32),
   (0x7c00042c, 0xfc0007ff, 0x21),
   (0x7c00042c, 0xfc0007ff, 0x32),
   (0x7c00042e, 0xfc0007ff, 0x23),
   (0x7c000430, 0xfc0007ff, 0x21),
   (0x7c000430, 0xfc0007ff, 0x32),
   (0x7c000431, 0xfc0007ff, 0x21),
   (0x7c000431, 0xfc0007ff, 0x32),
   (0x7c000432, 0xfc0007ff, 0x12),
   (0x7c000433, 0xfc0007ff, 0x12),
   (0x7c000434, 0xfc00ffff, 0x10000000000),
   (0x7c000435, 0xfc00ffff, 0x10000000000),
   (0x7c000436, 0xfc0007ff, 0x88),
   (0x7c000437, 0xfc0007ff, 0x88),
   (0x7c00043a, 0xfc0007ff, 0x12),
   (0x7c00043b, 0xfc0007ff, 0x12),
   (0x7c000444, 0xfc0007ff, 0x20000000000),
   (0x7c000446, 0xfc0007ff, 0x20002000000),
   (0x7c00044a, 0xfc0007ff, 0x200000000),
   (0x7c00044c, 0xfc0007ff, 0x8000),
   (0x7c00044e, 0xfc0007ff, 0x800000),
   (0x7c00044e, 0xfc0007ff, 0x4000000),
   (0x7c000450, 0xfc0007ff, 0x1),
   (0x7c000450, 0xfc0007ff, 0x1),
   (0x7c000451, 0xfc0007ff, 0x1),
   (0x7c000451, 0xfc0007ff, 0x1),
   (0x7c00046c, 0xffffffff, 0x1),
   (0x7c00046e, 0xfc0007ff, 0x23),
   (0x7c000474, 0xfc00ffff, 0x10000000000),
   (0x7c000475, 0xfc00ffff, 0x10000000000),
   (0x7c000480, 0xfc7fffff, 0x10000000000),
   (0x7c000484, 0xfc0007ff, 0x20000000000),
   (0x7c000486, 0xfc0007ff, 0x20002000000),
   (0x7c00048a, 0xfc0007ff, 0x200000000),
   (0x7c00048c, 0xfc0007ff, 0x10000000000),
   (0x7c00048e, 0xfc0007ff, 0x4000000),
   (0x7c000498, 0xfc0007fe, 0x8000000),
   (0x7c0004a6, 0xfc10ffff, 0x23),
   (0x7c0004aa, 0xfc0007ff, 0x21),
   (0x7c0004aa, 0xfc0007ff, 0x32),
   (0x7c0004ac, 0xffffffff, 0x800),
   (0x7c2004ac, 0xffffffff, 0x1),
   (0x7c4004ac, 0xffffffff, 0x88),
   (0x7c0004ac, 0xff90ffff, 0x200000000),
   (0x7c0004ac, 0xff9fffff, 0x21),
   (0x7c0004ac, 0xffffffff, 0x60000400),
   (0x7c0004ac, 0xffffffff, 0x40000400),
   (0x7c0004ac, 0xffffffff, 0x100000000),
   (0x7c0004ac, 0xffffffff, 0x32)]

/-- ppc-opc.c:6464-6619. -/
def opcodes26 : List (Nat × Nat × Nat) :=
  [(0x7c0004ae, 0xfc0007ff, 0x23),
   (0x7c0004be, 0xfc1f07ff, 0x400000),
   (0x7c0004be, 0xfc0007ff, 0x22000000),
   (0x7c0004c6, 0xfc0007ff, 0x2000000),
   (0x7c0004ca, 0xfc0007ff, 0x200000000),
   (0x7c0004cc, 0xfc0007ff, 0x10000000000),
   (0x7c0004ce, 0xfc0007ff, 0x4000000),
   (0x7c0004d0, 0xfc00ffff, 0x23),
   (0x7c0004d1, 0xfc00ffff, 0x23),
   (0x7c0004d6, 0xfc0007ff, 0x12),
   (0x7c0004d7, 0xfc0007ff, 0x12),
   (0x7c0004e6, 0xfc0007ff, 0x12),
   (0x7c0004ec, 0xfc00ffff, 0x12),
   (0x7c0004ee, 0xfc0007ff, 0x23),
   (0x7c000504, 0xfc0007ff, 0x20000000000),
   (0x7c000506, 0xfc0007ff, 0x20002000000),
   (0x7c00050e, 0xfc0007ff, 0x800000),
   (0x7c00050e, 0xfc0007ff, 0x4000000),
   (0x7c000518, 0xfc0007fe, 0x1000000000),
   (0x7c00051d, 0xffdfffff, 0x1000000000),
   (0x7c000510, 0xfc0007ff, 0x21),
   (0x7c000510, 0xfc0007ff, 0x32),
   (0x7c000511, 0xfc0007ff, 0x21),
   (0x7c000511, 0xfc0007ff, 0x32),
   (0x7c000514, 0xfc0007ff, 0x21),
   (0x7c000514, 0xfc0007ff, 0x32),
   (0x7c000515, 0xfc0007ff, 0x21),
   (0x7c000515, 0xfc0007ff, 0x32),
   (0x7c000526, 0xfc1f07ff, 0x1),
   (0x7c000528, 0xfc0007ff, 0x30800000),
   (0x7c00052a, 0xfc0007ff, 0x21),
   (0x7c00052a, 0xfc0007ff, 0x32),
   (0x7c00052c, 0xfc0007ff, 0x21),
   (0x7c00052c, 0xfc0007ff, 0x32),
   (0x7c00052e, 0xfc0007ff, 0x23),
   (0x7c000530, 0xfc0007ff, 0x12),
   (0x7c000531, 0xfc0007ff, 0x12),
   (0x7c000532, 0xfc0007ff, 0x12),
   (0x7c000533, 0xfc0007ff, 0x12),
   (0x7c000544, 0xfc0007ff, 0x20000000000),
   (0x7c000546, 0xfc0007ff, 0x20002000000),
   (0x7c00054a, 0xfc0007ff, 0x200000000),
   (0x7c00054e, 0xfc0007ff, 0x800000),
   (0x7c00054e, 0xfc0007ff, 0x4000000),
   (0x7e00055d, 0xffffffff, 0x1000000000),
   (0x7c00055d, 0xfdffffff, 0x1000000000),
   (0x7c00056d, 0xfc0007ff, 0x1200000000),
   (0x7c00056e, 0xfc0007ff, 0x23),
   (0x7c000570, 0xfc0007ff, 0x12),
   (0x7c000571, 0xfc0007ff, 0x12),
   (0x7c000584, 0xfc0007ff, 0x20000000000),
   (0x7c000586, 0xfc0007ff, 0x20002000000),
   (0x7c00058a, 0xfc0007ff, 0x200000000),
   (0x7c00058c, 0xfc0007ff, 0x10000000000),
   (0x7c00058e, 0xfc0007ff, 0x4000000),
   (0x7c000598, 0xfc0007fe, 0x8000000),
   (0x7c00059c, 0xfc7fffff, 0x1000000000),
   (0x7c000590, 0xfc00ffff, 0x21),
   (0x7c000590, 0xfc00ffff, 0x32),
   (0x7c000591, 0xfc00ffff, 0x21),
   (0x7c000591, 0xfc00ffff, 0x32),
   (0x7c000594, 0xfc00ffff, 0x21),
   (0x7c000594, 0xfc00ffff, 0x32),
   (0x7c000595, 0xfc00ffff, 0x21),
   (0x7c000595, 0xfc00ffff, 0x32),
   (0x7c0005aa, 0xfc0007ff, 0x21),
   (0x7c0005aa, 0xfc0007ff, 0x32),
   (0x7c0005ad, 0xfc0007ff, 0x1200000000),
   (0x7c0005ae, 0xfc0007ff, 0x23),
   (0x7c0005b0, 0xfc0007ff, 0x12),
   (0x7c0005b1, 0xfc0007ff, 0x12),
   (0x7c0005b2, 0xfc0007ff, 0x12),
   (0x7c0005b3, 0xfc0007ff, 0x12),
   (0x7c0005be, 0xfc1f07ff, 0x400000),
   (0x7c0005be, 0xfc0007ff, 0x22000000),
   (0x7c0005c6, 0xfc0007ff, 0x2000000),
   (0x7c0005ca, 0xfc0007ff, 0x200000000),
   (0x7c0005cc, 0xfc0007ff, 0x10000000000),
   (0x7c0005ce, 0xfc0007ff, 0x4000000),
   (0x7c0005d0, 0xfc00ffff, 0x21),
   (0x7c0005d0, 0xfc00ffff, 0x32),
   (0x7c0005d1, 0xfc00ffff, 0x21),
   (0x7c0005d1, 0xfc00ffff, 0x32),
   (0x7c0005d2, 0xfc0007ff, 0x88),
   (0x7c0005d3, 0xfc0007ff, 0x88),
   (0x7c0005d4, 0xfc00ffff, 0x21),
   (0x7c0005d4, 0xfc00ffff, 0x32),
   (0x7c0005d5, 0xfc00ffff, 0x21),
   (0x7c0005d5, 0xfc00ffff, 0x32),
   (0x7c0005d6, 0xfc0007ff, 0x21),
   (0x7c0005d6, 0xfc0007ff, 0x32),
   (0x7c0005d7, 0xfc0007ff, 0x21),
   (0x7c0005d7, 0xfc0007ff, 0x32),
   (0x7c0005dd, 0xffffffff, 0x1000000000),
   (0x7c2005dd, 0xffffffff, 0x1000000000),
   (0x7c0005dd, 0xffdfffff, 0x1000000000),
   (0x7c0005e6, 0xfc1cffff, 0x10000000000),
   (0x7c0005ec, 0xffe007ff, 0x4064000400),
   (0x7c2005ec, 0xffe007ff, 0x2000000),
   (0x7c0005ee, 0xfc0007ff, 0x23)]

/-- ppc-opc.c:6621-6777. -/
def opcodes27 : List (Nat × Nat × Nat) :=
  [(0x7c0005f0, 0xfc0007ff, 0x12),
   (0x7c0005f1, 0xfc0007ff, 0x12),
   (0x7c00060a, 0xfc0007ff, 0x200000000),
   (0x7c20060c, 0xffe007ff, 0x10000000000),
   (0x7c00060e, 0xfc0007ff, 0x200000000),
   (0x7c00060e, 0xfc0007ff, 0x800000),
   (0x7c00060e, 0xfc0007ff, 0x4000000),
   (0x7c000610, 0xfc0007ff, 0x12),
   (0x7c000611, 0xfc0007ff, 0x12),
   (0x7c000614, 0xfc0007ff, 0x21),
   (0x7c000614, 0xfc0007ff, 0x32),
   (0x7c000615, 0xfc0007ff, 0x21),
   (0x7c000615, 0xfc0007ff, 0x32),
   (0x7c000612, 0xfc0007ff, 0x10000000000),
   (0x7c000616, 0xfc0007ff, 0x10000000000),
   (0x7c000618, 0xfc0007fe, 0x8000000),
   (0x7c00061a, 0xfc0007fe, 0x10000000000),
   (0x7c00061d, 0xfc0007ff, 0x1000000000),
   (0x7c000624, 0xffe007ff, 0x60000400),
   (0x7c00062a, 0xfc0007ff, 0x400000),
   (0x7c00062c, 0xfc0007ff, 0x23),
   (0x7c00062e, 0xfc2007ff, 0x400000),
   (0x7c00062e, 0xfc0007ff, 0x6),
   (0x7c000630, 0xfc0007ff, 0x21),
   (0x7c000630, 0xfc0007ff, 0x32),
   (0x7c000631, 0xfc0007ff, 0x21),
   (0x7c000631, 0xfc0007ff, 0x32),
   (0x7c000634, 0xfc0007ff, 0x88),
   (0x7c000635, 0xfc0007ff, 0x88),
   (0x7c00063e, 0xfc0007ff, 0x1000),
   (0x7c000646, 0xfc0007ff, 0x2000000),
   (0x7c00064a, 0xfc0007ff, 0x200000000),
   (0x7c00064e, 0xfc0007ff, 0x200000000),
   (0x7c00064e, 0xfc0007ff, 0x800000),
   (0x7c000658, 0xfc0007fe, 0x10000000000),
   (0x7c00065a, 0xfc0007fe, 0x10000000000),
   (0x7c00065d, 0xfc0007ff, 0x1000000000),
   (0x7c000664, 0xfc0007ff, 0x12),
   (0x7c000666, 0xfc0007ff, 0x20000000),
   (0x7c00066a, 0xfc0007ff, 0x400000),
   (0x7c00066c, 0xfe0007fe, 0x100),
   (0x7c00066e, 0xfc0007ff, 0x6),
   (0x7c000670, 0xfc0007ff, 0x21),
   (0x7c000670, 0xfc0007ff, 0x32),
   (0x7c000671, 0xfc0007ff, 0x21),
   (0x7c000671, 0xfc0007ff, 0x32),
   (0x7c000674, 0xfc0007fd, 0x88),
   (0x7c000675, 0xfc0007fd, 0x88),
   (0x7c00068a, 0xfc0007ff, 0x200000000),
   (0x7c00068c, 0xffffffff, 0x10000000000),
   (0x7c000696, 0xfc0007ff, 0x12),
   (0x7c000697, 0xfc0007ff, 0x12),
   (0x7c000698, 0xfc0007fe, 0x8000000),
   (0x7c000698, 0xfc0007fe, 0x1000000000),
   (0x7c00069d, 0xfc0007ff, 0x1000000000),
   (0x7c0006a5, 0xffe007ff, 0x20000000),
   (0x7c0006a4, 0xfc1fffff, 0x10000000000),
   (0x7c0006a6, 0xfc1e07ff, 0x10000000000),
   (0x7c0006a6, 0xfc1f07ff, 0x88),
   (0x7c0006aa, 0xfc0007ff, 0x400000),
   (0x7c0006ac, 0xffffffff, 0x1),
   (0x7c0006ac, 0xfc0007ff, 0x60000400),
   (0x7c2006ac, 0xffffffff, 0x100000000),
   (0x7c0006ac, 0xffffffff, 0x60000000),
   (0x7c0006ae, 0xfc0007ff, 0x60400000),
   (0x7c0006ca, 0xfc0007ff, 0x200000000),
   (0x7c0006d0, 0xfc00ffff, 0x12),
   (0x7c0006d1, 0xfc00ffff, 0x12),
   (0x7c0006d6, 0xfc0007ff, 0x12),
   (0x7c0006d7, 0xfc0007ff, 0x12),
   (0x7c0006d8, 0xfc0007fe, 0x10000000000),
   (0x7c0006dd, 0xfc0007ff, 0x1000000000),
   (0x7c0006e4, 0xffff07ff, 0x10000000000),
   (0x7c0006ea, 0xfc0007ff, 0x400000),
   (0x7c0006ec, 0xffffffff, 0x10000000000),
   (0x7c0006ee, 0xfc0007ff, 0x30000000),
   (0x7c0006f4, 0xfc0007fd, 0x10000000000),
   (0x7c0006f5, 0xfc0007fd, 0x10000000000),
   (0x7c20070d, 0xffe007ff, 0x10000000000),
   (0x7c00070e, 0xfc0007ff, 0x800000),
   (0x7c00070e, 0xfc0007ff, 0x4000000),
   (0x7c000712, 0xfc0007ff, 0x30000000),
   (0x7c000713, 0xfc0007ff, 0x30000000),
   (0x7c000716, 0xfc0007ff, 0x30000000),
   (0x7c000717, 0xfc0007ff, 0x30000000),
   (0x7c000718, 0xfc0007fe, 0x8000000),
   (0x7c00071a, 0xfc0007fe, 0x10000000000),
   (0x7c00071d, 0xffe0ffff, 0x1000000000),
   (0x7c000724, 0xfc0007ff, 0x60000600),
   (0x7c000725, 0xfc0007ff, 0x60000600),
   (0x7c000726, 0xfc1e07ff, 0x10000000000),
   (0x7c000726, 0xfc1f07ff, 0x88),
   (0x7c00072a, 0xfc0007ff, 0x400000),
   (0x7c00072c, 0xfc0007ff, 0x23),
   (0x7c00072e, 0xfc2007ff, 0x400000),
   (0x7c00072e, 0xfc0007ff, 0x6),
   (0x7c000730, 0xfc0007ff, 0x12),
   (0x7c000731, 0xfc0007ff, 0x12),
   (0x7c000732, 0xfc0007ff, 0x12),
   (0x7c000733, 0xfc0007ff, 0x12)]

/-- ppc-opc.c:6779-6937. -/
def opcodes28 : List (Nat × Nat × Nat) :=
  [(0x7c000734, 0xfc00ffff, 0x21),
   (0x7c000734, 0xfc00ffff, 0x32),
   (0x7c000735, 0xfc00ffff, 0x21),
   (0x7c000735, 0xfc00ffff, 0x32),
   (0x7c00073e, 0xfc0007ff, 0x1000),
   (0x7c000746, 0xfc0007ff, 0x2000000),
   (0x7c00074a, 0xfc0007ff, 0x200000000),
   (0x7c40074c, 0xffe007ff, 0x20000000),
   (0x7c00074c, 0xfc1fffff, 0x20000000),
   (0x7c00074c, 0xfc0007ff, 0x20000000),
   (0x7c00074e, 0xfc0007ff, 0x800000),
   (0x7c000752, 0xfc0007ff, 0x30000000),
   (0x7c000753, 0xfc0007ff, 0x30000000),
   (0x7c000756, 0xfc0007ff, 0x30000000),
   (0x7c000757, 0xfc0007ff, 0x30000000),
   (0x7c000758, 0xfc0007fe, 0x10000000000),
   (0x7c00075a, 0xfc0007fe, 0x10000000000),
   (0x7c00075d, 0xffe0ffff, 0x1000000000),
   (0x7c000764, 0xfc00ffff, 0x200),
   (0x7c000f64, 0xfc00ffff, 0x200),
   (0x7c000764, 0xfc0007ff, 0x60000600),
   (0x7c00076a, 0xfc0007ff, 0x400000),
   (0x7c00076c, 0xfc0007ff, 0x20000000),
   (0x7c00076d, 0xfc0007ff, 0x20000000),
   (0x7c00076e, 0xfc0007ff, 0x6),
   (0x7c000770, 0xfc0007ff, 0x12),
   (0x7c000771, 0xfc0007ff, 0x12),
   (0x7c000774, 0xfc00ffff, 0x1),
   (0x7c000775, 0xfc00ffff, 0x1),
   (0x7c00078a, 0xfc0007ff, 0x200000000),
   (0x7c00078c, 0xffe007ff, 0xe0080200),
   (0x7c00078c, 0xfc1fffff, 0x60000000),
   (0x7c000792, 0xfc0007ff, 0x88),
   (0x7c000793, 0xfc0007ff, 0x88),
   (0x7c000796, 0xfc0007ff, 0x1),
   (0x7c000797, 0xfc0007ff, 0x1),
   (0x7c000798, 0xfc0007fe, 0x8000000),
   (0x7c000798, 0xfc0007fe, 0x1000000000),
   (0x7c0007a4, 0xffff07ff, 0x1),
   (0x7c0007a4, 0xfc00ffff, 0x200),
   (0x7c000fa4, 0xfc00ffff, 0x200),
   (0x7c0007a4, 0xfc0007ff, 0x60000600),
   (0x7c0007a7, 0xfc1f07ff, 0x400000),
   (0x7c0007aa, 0xfc0007ff, 0x400000),
   (0x7c0007ac, 0xffe007ff, 0x1),
   (0x7c0007ae, 0xfc0007ff, 0x1),
   (0x7c0007b4, 0xfc00ffff, 0x88),
   (0x7c0007b5, 0xfc00ffff, 0x88),
   (0x7c0007be, 0xffe007ff, 0x22000000),
   (0x7c0007ca, 0xfc0007ff, 0x200000000),
   (0x7c0007cc, 0xffe007ff, 0xc0080200),
   (0x7c0007d0, 0xfc00ffff, 0x12),
   (0x7c0007d1, 0xfc00ffff, 0x12),
   (0x7c0007d2, 0xfc0007ff, 0x88),
   (0x7c0007d3, 0xfc0007ff, 0x88),
   (0x7c0007d6, 0xfc0007ff, 0x1),
   (0x7c0007d7, 0xfc0007ff, 0x1),
   (0x7c0007d8, 0xfc0007fe, 0x10000000000),
   (0x7c0007dd, 0xffffffff, 0x1000000000),
   (0x7c0007e4, 0xffff07ff, 0x1),
   (0x7c0007ea, 0xfc0007ff, 0x400000),
   (0x7c0007ec, 0xffe007ff, 0x1),
   (0x7c0007ec, 0xffe007ff, 0x1),
   (0x7c0007fe, 0xffe007ff, 0x22000000),
   (0x7c2007ec, 0xffe007ff, 0x2000800),
   (0x7c210b78, 0xffffffff, 0x800000),
   (0x7c421378, 0xffffffff, 0x800000),
   (0x7c631b78, 0xffffffff, 0x800000),
   (0x7e0002ac, 0xfe0007fe, 0x100),
   (0x7e0002ec, 0xfe0007fe, 0x100),
   (0x7e00066c, 0xfe0007fe, 0x100),
   (0x7f9ce378, 0xffffffff, 0x800000),
   (0x7fbdeb78, 0xffffffff, 0x800000),
   (0x7fdef378, 0xffffffff, 0x800000),
   (0x7ffffb78, 0xffffffff, 0x800000),
   (0x80000000, 0xfc000000, 0x21),
   (0x80000000, 0xfc000000, 0x32),
   (0x84000000, 0xfc000000, 0x21),
   (0x84000000, 0xfc000000, 0x32),
   (0x88000000, 0xfc000000, 0x23),
   (0x8c000000, 0xfc000000, 0x23),
   (0x90000000, 0xfc000000, 0x21),
   (0x90000000, 0xfc000000, 0x32),
   (0x94000000, 0xfc000000, 0x21),
   (0x94000000, 0xfc000000, 0x32),
   (0x98000000, 0xfc000000, 0x23),
   (0x9c000000, 0xfc000000, 0x23),
   (0xa0000000, 0xfc000000, 0x23),
   (0xa4000000, 0xfc000000, 0x23),
   (0xa8000000, 0xfc000000, 0x23),
   (0xac000000, 0xfc000000, 0x23),
   (0xb0000000, 0xfc000000, 0x23),
   (0xb4000000, 0xfc000000, 0x23),
   (0xb8000000, 0xfc000000, 0x21),
   (0xb8000000, 0xfc000000, 0x32),
   (0xbc000000, 0xfc000000, 0x21),
   (0xbc000000, 0xfc000000, 0x32),
   (0xc0000000, 0xfc000000, 0x23),
   (0xc4000000, 0xfc000000, 0x23),
   (0xc8000000, 0xfc000000, 0x23)]

/-- ppc-opc.c:6939-7082. -/
def opcodes29 : List (Nat × Nat × Nat) :=
  [(0xcc000000, 0xfc000000, 0x23),
   (0xd0000000, 0xfc000000, 0x23),
   (0xd4000000, 0xfc000000, 0x23),
   (0xd8000000, 0xfc000000, 0x23),
   (0xdc000000, 0xfc000000, 0x23),
   (0xe0000000, 0xfc200000, 0x800),
   (0xe0000000, 0xfc000000, 0x1000000),
   (0xe0000000, 0xfc000000, 0x6),
   (0xe4000002, 0xfc000003, 0x10000000000),
   (0xe4000003, 0xfc000003, 0x10000000000),
   (0xe4000000, 0xfc200000, 0x400000),
   (0xe4000000, 0xfc000000, 0x1000000),
   (0xe4000000, 0xfc000000, 0x6),
   (0xe8000000, 0xfc000003, 0x88),
   (0xe8000001, 0xfc000003, 0x88),
   (0xe8000002, 0xfc000003, 0x88),
   (0xec000004, 0xfc0007ff, 0x400000),
   (0xec000005, 0xfc0007ff, 0x400000),
   (0xec000006, 0xfc0001ff, 0x400000),
   (0xec000007, 0xfc0001ff, 0x400000),
   (0xec000024, 0xfc0007ff, 0x1),
   (0xec000025, 0xfc0007ff, 0x1),
   (0xec000028, 0xfc0007ff, 0x1),
   (0xec000029, 0xfc0007ff, 0x1),
   (0xec00002a, 0xfc0007ff, 0x1),
   (0xec00002b, 0xfc0007ff, 0x1),
   (0xec00002c, 0xfc1f07ff, 0x1),
   (0xec00002d, 0xfc1f07ff, 0x1),
   (0xec000030, 0xfc1f07ff, 0x10000000),
   (0xec000030, 0xfc1e07ff, 0x1),
   (0xec000031, 0xfc1f07ff, 0x10000000),
   (0xec000031, 0xfc1e07ff, 0x1),
   (0xec000032, 0xfc00f83f, 0x1),
   (0xec000033, 0xfc00f83f, 0x1),
   (0xec000034, 0xfc1f07ff, 0x10000000),
   (0xec000034, 0xfc1e07ff, 0x100000),
   (0xec000035, 0xfc1f07ff, 0x10000000),
   (0xec000035, 0xfc1e07ff, 0x100000),
   (0xec000038, 0xfc00003f, 0x1),
   (0xec000039, 0xfc00003f, 0x1),
   (0xec00003a, 0xfc00003f, 0x1),
   (0xec00003b, 0xfc00003f, 0x1),
   (0xec00003c, 0xfc00003f, 0x1),
   (0xec00003d, 0xfc00003f, 0x1),
   (0xec00003e, 0xfc00003f, 0x1),
   (0xec00003f, 0xfc00003f, 0x1),
   (0xec000044, 0xfc0007ff, 0x400000),
   (0xec000045, 0xfc0007ff, 0x400000),
   (0xec000046, 0xfc0001ff, 0x400000),
   (0xec000047, 0xfc0001ff, 0x400000),
   (0xec000084, 0xfc0003ff, 0x400000),
   (0xec000085, 0xfc0003ff, 0x400000),
   (0xec000086, 0xfc0001ff, 0x400000),
   (0xec000087, 0xfc0001ff, 0x400000),
   (0xec0000c4, 0xfc0003ff, 0x400000),
   (0xec0000c5, 0xfc0003ff, 0x400000),
   (0xec0000c6, 0xfc0001ff, 0x400000),
   (0xec0000c7, 0xfc0001ff, 0x400000),
   (0xec000104, 0xfc0007ff, 0x400000),
   (0xec000144, 0xfc0007ff, 0x400000),
   (0xec000184, 0xfc0003ff, 0x400000),
   (0xec0001c4, 0xfc0003ff, 0x400000),
   (0xec0001c6, 0xfc0001ff, 0x400000),
   (0xec0001c7, 0xfc0001ff, 0x400000),
   (0xec000204, 0xfc0007ff, 0x400000),
   (0xec000205, 0xfc0007ff, 0x400000),
   (0xec000244, 0xfc0007ff, 0x400000),
   (0xec000245, 0xfc0007ff, 0x400000),
   (0xec000284, 0xfc0007ff, 0x400000),
   (0xec000285, 0xfc0007ff, 0x400000),
   (0xec0002c4, 0xfc0007ff, 0x400000),
   (0xec0002c5, 0xfc0007ff, 0x400000),
   (0xec000404, 0xfc0007ff, 0x400000),
   (0xec000405, 0xfc0007ff, 0x400000),
   (0xec000444, 0xfc0007ff, 0x400000),
   (0xec000445, 0xfc0007ff, 0x400000),
   (0xec000504, 0xfc0007ff, 0x400000),
   (0xec000544, 0xfc0007ff, 0x400000),
   (0xec000546, 0xfc4007ff, 0x10000000000),
   (0xec000604, 0xfc0007ff, 0x400000),
   (0xec000605, 0xfc0007ff, 0x400000),
   (0xec000644, 0xfc1f07ff, 0x10000000),
   (0xec000645, 0xfc1f07ff, 0x10000000),
   (0xec000684, 0xfc0007ff, 0x400000),
   (0xec000685, 0xfc0007ff, 0x400000),
   (0xec00069c, 0xfc1f07ff, 0x30000000),
   (0xec00069d, 0xfc1f07ff, 0x30000000),
   (0xec0006c4, 0xfc0007ff, 0x400000),
   (0xec0006c5, 0xfc0007ff, 0x400000),
   (0xec00079c, 0xfc1f07ff, 0x30000000),
   (0xec00079d, 0xfc1f07ff, 0x30000000),
   (0xf0000000, 0xfc0007f8, 0x1000000000),
   (0xf0000008, 0xfc0007f8, 0x1000000000),
   (0xf0000010, 0xfc0004f8, 0x8000000),
   (0xf0000018, 0xfc0007f8, 0x10000000000),
   (0xf0000028, 0xfc1f07fc, 0x1000000000),
   (0xf000002c, 0xfc1f07fc, 0x1000000000),
   (0xf0000030, 0xfc000030, 0x8000000),
   (0xf0000040, 0xfc0007f8, 0x1000000000),
   (0xf0000048, 0xfc0007f8, 0x1000000000)]

/-- ppc-opc.c:7083-7182. -/
def opcodes30 : List (Nat × Nat × Nat) :=
  [(0xf0000050, 0xfc0004f8, 0x8000000),
   (0xf0000050, 0xfc0007f8, 0x8000000),
   (0xf0000250, 0xfc0007f8, 0x8000000),
   (0xf0000350, 0xfc0007f8, 0x8000000),
   (0xf0000050, 0xfc0004f8, 0x8000000),
   (0xf0000058, 0xfc0007f8, 0x10000000000),
   (0xf0000068, 0xfc1f07fc, 0x1000000000),
   (0xf0000080, 0xfc0007f8, 0x1000000000),
   (0xf0000088, 0xfc0007f8, 0x1000000000),
   (0xf0000090, 0xfc0007f8, 0x8000000),
   (0xf0000098, 0xfc0007f8, 0x10000000000),
   (0xf00000c0, 0xfc0007f8, 0x1000000000),
   (0xf00000c8, 0xfc0007f8, 0x1000000000),
   (0xf00000d0, 0xfc0007f8, 0x10000000000),
   (0xf0000100, 0xfc0007f8, 0x8000000),
   (0xf0000108, 0xfc0007f8, 0x8000000),
   (0xf0000118, 0xfc6007f9, 0x8000000),
   (0xf0000120, 0xfc1f07fc, 0x8000000),
   (0xf0000124, 0xfc1f07fc, 0x8000000),
   (0xf0000128, 0xfc1f07fc, 0x8000000),
   (0xf000012c, 0xfc1f07fc, 0x8000000),
   (0xf0000140, 0xfc0007f8, 0x8000000),
   (0xf0000148, 0xfc0007f8, 0x8000000),
   (0xf0000158, 0xfc6007f9, 0x8000000),
   (0xf0000160, 0xfc1f07fc, 0x8000000),
   (0xf0000164, 0xfc1f07fc, 0x8000000),
   (0xf0000168, 0xfc1f07fc, 0x8000000),
   (0xf0000180, 0xfc0007f8, 0x8000000),
   (0xf0000188, 0xfc0007f8, 0x8000000),
   (0xf0000190, 0xfc0007f8, 0x8000000),
   (0xf00001a4, 0xfc1f07fc, 0x8000000),
   (0xf00001a8, 0xfc7f07fd, 0x8000000),
   (0xf00001ac, 0xfc1f07fc, 0x8000000),
   (0xf00001c0, 0xfc0007f8, 0x8000000),
   (0xf00001c8, 0xfc0007f8, 0x8000000),
   (0xf00001d0, 0xfc0007f8, 0x10000000000),
   (0xf00001d8, 0xfc6007f9, 0x10000000000),
   (0xf00001e4, 0xfc1f07fc, 0x8000000),
   (0xf00001e8, 0xfc6007f9, 0x8000000),
   (0xf0000200, 0xfc0007f8, 0x8000000),
   (0xf0000208, 0xfc0007f8, 0x8000000),
   (0xf0000218, 0xfc0007f8, 0x8000000),
   (0xf0000618, 0xfc0007f8, 0x8000000),
   (0xf0000220, 0xfc1f07fc, 0x8000000),
   (0xf0000224, 0xfc1f07fc, 0x8000000),
   (0xf0000228, 0xfc1f07fc, 0x8000000),
   (0xf000022c, 0xfc1f07fc, 0x8000000),
   (0xf0000240, 0xfc0007f8, 0x8000000),
   (0xf0000248, 0xfc0007f8, 0x8000000),
   (0xf0000258, 0xfc0007f8, 0x8000000),
   (0xf0000658, 0xfc0007f8, 0x8000000),
   (0xf0000260, 0xfc1f07fc, 0x8000000),
   (0xf0000264, 0xfc1f07fc, 0x8000000),
   (0xf0000268, 0xfc1f07fc, 0x8000000),
   (0xf0000280, 0xfc0007f8, 0x8000000),
   (0xf0000288, 0xfc0007f8, 0x8000000),
   (0xf0000290, 0xfc1c07fc, 0x8000000),
   (0xf0000294, 0xfc1007fc, 0x10000000000),
   (0xf0000298, 0xfc0007f8, 0x8000000),
   (0xf0000698, 0xfc0007f8, 0x8000000),
   (0xf00002a0, 0xfc1f07fc, 0x8000000),
   (0xf00002a4, 0xfc1f07fc, 0x8000000),
   (0xf00002a8, 0xfc7f07fd, 0x8000000),
   (0xf00002ac, 0xfc1f07fc, 0x8000000),
   (0xf00002c0, 0xfc0007f8, 0x8000000),
   (0xf00002c8, 0xfc0007f8, 0x8000000),
   (0xf00002d0, 0xfc1807fe, 0x10000000000),
   (0xf00002d4, 0xfc1007fc, 0x10000000000),
   (0xf00002e0, 0xfc1f07fc, 0x8000000),
   (0xf00002e4, 0xfc1f07fc, 0x8000000),
   (0xf00002e8, 0xfc6007f9, 0x8000000),
   (0xf0000300, 0xfc0007f8, 0x8000000),
   (0xf0000308, 0xfc0007f8, 0x8000000),
   (0xf0000318, 0xfc0007f8, 0x8000000),
   (0xf0000718, 0xfc0007f8, 0x8000000),
   (0xf0000320, 0xfc1f07fc, 0x8000000),
   (0xf0000324, 0xfc1f07fc, 0x8000000),
   (0xf0000328, 0xfc1f07fc, 0x8000000),
   (0xf000032c, 0xfc1f07fc, 0x8000000),
   (0xf0000340, 0xfc0007f8, 0x8000000),
   (0xf0000348, 0xfc0007f8, 0x8000000),
   (0xf0000358, 0xfc0007f8, 0x8000000),
   (0xf0000758, 0xfc0007f8, 0x8000000),
   (0xf0000360, 0xfc1f07fc, 0x8000000),
   (0xf0000364, 0xfc1f07fc, 0x8000000),
   (0xf0000368, 0xfc1f07fc, 0x8000000),
   (0xf0000380, 0xfc0007f8, 0x8000000),
   (0xf0000388, 0xfc0007f8, 0x8000000),
   (0xf0000398, 0xfc0007f8, 0x8000000),
   (0xf0000798, 0xfc0007f8, 0x8000000),
   (0xf00003a0, 0xfc1f07fc, 0x8000000),
   (0xf00003a4, 0xfc1f07fc, 0x8000000),
   (0xf00003a8, 0xfc7f07fd, 0x8000000),
   (0xf00003ac, 0xfc1f07fc, 0x8000000),
   (0xf00003c0, 0xfc0007f8, 0x8000000),
   (0xf00003c8, 0xfc0007f8, 0x8000000),
   (0xf00003e0, 0xfc1f07fc, 0x8000000),
   (0xf00003e4, 0xfc1f07fc, 0x8000000),
   (0xf00003e8, 0xfc6007f9, 0x8000000),
   (0xf0000400, 0xfc0007f8, 0x10000000000)]

/-- ppc-opc.c:7183-7285. -/
def opcodes31 : List (Nat × Nat × Nat) :=
  [(0xf0000408, 0xfc0007f8, 0x1000000000),
   (0xf0000410, 0xfc0007f8, 0x8000000),
   (0xf0000424, 0xfc1f07fc, 0x8000000),
   (0xf000042c, 0xfc1f07fc, 0x1000000000),
   (0xf0000440, 0xfc0007f8, 0x10000000000),
   (0xf0000448, 0xfc0007f8, 0x1000000000),
   (0xf0000450, 0xfc0007f8, 0x8000000),
   (0xf0000464, 0xfc1f07fc, 0x1000000000),
   (0xf0000480, 0xfc0007f8, 0x10000000000),
   (0xf0000488, 0xfc0007f8, 0x1000000000),
   (0xf0000490, 0xfc0007f8, 0x8000000),
   (0xf00004a0, 0xfc1f07fc, 0x1000000000),
   (0xf00004a8, 0xfc0007fd, 0x10000000000),
   (0xf00004c0, 0xfc0007f8, 0x10000000000),
   (0xf00004c8, 0xfc0007f8, 0x1000000000),
   (0xf00004d0, 0xfc0007f8, 0x8000000),
   (0xf00004e0, 0xfc1f07fc, 0x1000000000),
   (0xf0000500, 0xfc0007f8, 0x8000000),
   (0xf0000508, 0xfc0007f8, 0x8000000),
   (0xf0000510, 0xfc0007f8, 0x8000000),
   (0xf0000520, 0xfc1f07fc, 0x8000000),
   (0xf0000524, 0xfc1f07fc, 0x8000000),
   (0xf000052c, 0xfc1f07fc, 0x1000000000),
   (0xf0000540, 0xfc0007f8, 0x8000000),
   (0xf0000548, 0xfc0007f8, 0x8000000),
   (0xf0000550, 0xfc0007f8, 0x1000000000),
   (0xf0000560, 0xfc1f07fc, 0x8000000),
   (0xf0000564, 0xfc1f07fc, 0x8000000),
   (0xf000056c, 0xfc1f07fd, 0x10000000000),
   (0xf001056c, 0xfc1f07fd, 0x10000000000),
   (0xf010056c, 0xfc1f07fc, 0x10000000000),
   (0xf011056c, 0xfc1f07fc, 0x10000000000),
   (0xf0000580, 0xfc0007f8, 0x8000000),
   (0xf0000588, 0xfc0007f8, 0x8000000),
   (0xf0000590, 0xfc0007f8, 0x1000000000),
   (0xf00005a0, 0xfc1f07fc, 0x8000000),
   (0xf00005a4, 0xfc1f07fc, 0x8000000),
   (0xf00005a8, 0xfc0007fd, 0x10000000000),
   (0xf00005c8, 0xfc0007f8, 0x8000000),
   (0xf00005d0, 0xfc0007f8, 0x1000000000),
   (0xf00005e0, 0xfc1f07fc, 0x8000000),
   (0xf00005e4, 0xfc1f07fc, 0x8000000),
   (0xf0000600, 0xfc0007f8, 0x8000000),
   (0xf0000608, 0xfc0007f8, 0x8000000),
   (0xf0000620, 0xfc1f07fc, 0x8000000),
   (0xf0000624, 0xfc1f07fc, 0x8000000),
   (0xf0000640, 0xfc0007f8, 0x8000000),
   (0xf0000648, 0xfc0007f8, 0x8000000),
   (0xf0000660, 0xfc1f07fc, 0x8000000),
   (0xf0000664, 0xfc1f07fc, 0x8000000),
   (0xf0000680, 0xfc0007f8, 0x8000000),
   (0xf0000680, 0xfc0007f8, 0x8000000),
   (0xf0000688, 0xfc0007f8, 0x8000000),
   (0xf00006a0, 0xfc1f07fc, 0x8000000),
   (0xf00006a4, 0xfc1f07fc, 0x8000000),
   (0xf00006a8, 0xfc0007b8, 0x10000000000),
   (0xf00006c0, 0xfc0007f8, 0x10000000000),
   (0xf00006c8, 0xfc0007f8, 0x8000000),
   (0xf00006e0, 0xfc1f07fc, 0x8000000),
   (0xf00006e4, 0xfc1f07fc, 0x8000000),
   (0xf0000700, 0xfc0007f8, 0x8000000),
   (0xf0000708, 0xfc0007f8, 0x8000000),
   (0xf0000720, 0xfc1f07fc, 0x8000000),
   (0xf0000724, 0xfc1f07fc, 0x8000000),
   (0xf000072c, 0xfc0007fe, 0x10000000000),
   (0xf0000740, 0xfc0007f8, 0x8000000),
   (0xf0000748, 0xfc0007f8, 0x8000000),
   (0xf0000760, 0xfc1f07fc, 0x8000000),
   (0xf0000764, 0xfc1f07fc, 0x8000000),
   (0xf000076c, 0xfc1f07fc, 0x10000000000),
   (0xf001076c, 0xfc1f07fc, 0x10000000000),
   (0xf007076c, 0xfc1f07fc, 0x10000000000),
   (0xf008076c, 0xfc1f07fc, 0x10000000000),
   (0xf009076c, 0xfc1f07fc, 0x10000000000),
   (0xf00f076c, 0xfc1f07fc, 0x10000000000),
   (0xf017076c, 0xfc1f07fc, 0x10000000000),
   (0xf018076c, 0xfc1f07fc, 0x10000000000),
   (0xf019076c, 0xfc1f07fc, 0x10000000000),
   (0xf01f076c, 0xfc1f07fc, 0x10000000000),
   (0xf0000780, 0xfc0007f8, 0x8000000),
   (0xf0000780, 0xfc0007f8, 0x8000000),
   (0xf0000788, 0xfc0007f8, 0x8000000),
   (0xf00007a0, 0xfc1f07fc, 0x8000000),
   (0xf00007a4, 0xfc1f07fc, 0x8000000),
   (0xf00007a8, 0xfc0007b8, 0x10000000000),
   (0xf00007c0, 0xfc0007f8, 0x10000000000),
   (0xf00007c8, 0xfc0007f8, 0x8000000),
   (0xf00007e0, 0xfc1f07fc, 0x8000000),
   (0xf00007e4, 0xfc1f07fc, 0x8000000),
   (0xf0000000, 0xfc000000, 0x1000000),
   (0xf0000000, 0xfc000000, 0x6),
   (0xf4000001, 0xfc000007, 0x10000000000),
   (0xf4000005, 0xfc000007, 0x10000000000),
   (0xf4000002, 0xfc000003, 0x10000000000),
   (0xf4000003, 0xfc000003, 0x10000000000),
   (0xf4000000, 0xfc200000, 0x400000),
   (0xf4000000, 0xfc000000, 0x1000000),
   (0xf4000000, 0xfc000000, 0x6),
   (0xf8000000, 0xfc000003, 0x88),
   (0xf8000001, 0xfc000003, 0x88)]

/-- ppc-opc.c:7286-7426. -/
def opcodes32 : List (Nat × Nat × Nat) :=
  [(0xf8000002, 0xfc200003, 0x800),
   (0xfc000000, 0xfc6007ff, 0x23),
   (0xfc000004, 0xfc2007ff, 0x400000),
   (0xfc000005, 0xfc2007ff, 0x400000),
   (0xfc000006, 0xfc2001ff, 0x400000),
   (0xfc000007, 0xfc2001ff, 0x400000),
   (0xfc000008, 0xfc0007ff, 0x10000000000),
   (0xfc000009, 0xfc0007ff, 0x10000000000),
   (0xfc00000a, 0xfc0001ff, 0x10000000000),
   (0xfc00000b, 0xfc0001ff, 0x10000000000),
   (0xfc000010, 0xfc0007ff, 0x60400000),
   (0xfc000011, 0xfc0007ff, 0x60400000),
   (0xfc000018, 0xfc1f07ff, 0x23),
   (0xfc000019, 0xfc1f07ff, 0x23),
   (0xfc00001c, 0xfc1f07ff, 0x21),
   (0xfc00001c, 0xfc1f07ff, 0x26),
   (0xfc00001d, 0xfc1f07ff, 0x21),
   (0xfc00001d, 0xfc1f07ff, 0x26),
   (0xfc00001e, 0xfc1f07ff, 0x21),
   (0xfc00001e, 0xfc1f07ff, 0x26),
   (0xfc00001f, 0xfc1f07ff, 0x21),
   (0xfc00001f, 0xfc1f07ff, 0x26),
   (0xfc000024, 0xfc0007ff, 0x21),
   (0xfc000024, 0xfc0007ff, 0x32),
   (0xfc000025, 0xfc0007ff, 0x21),
   (0xfc000025, 0xfc0007ff, 0x32),
   (0xfc000028, 0xfc0007ff, 0x21),
   (0xfc000028, 0xfc0007ff, 0x32),
   (0xfc000029, 0xfc0007ff, 0x21),
   (0xfc000029, 0xfc0007ff, 0x32),
   (0xfc00002a, 0xfc0007ff, 0x21),
   (0xfc00002a, 0xfc0007ff, 0x32),
   (0xfc00002b, 0xfc0007ff, 0x21),
   (0xfc00002b, 0xfc0007ff, 0x32),
   (0xfc00002c, 0xfc1f07ff, 0x27),
   (0xfc00002d, 0xfc1f07ff, 0x27),
   (0xfc00002e, 0xfc00003f, 0x1),
   (0xfc00002f, 0xfc00003f, 0x1),
   (0xfc000030, 0xfc1f07ff, 0x10000000),
   (0xfc000030, 0xfc1e07ff, 0x100000),
   (0xfc000031, 0xfc1f07ff, 0x10000000),
   (0xfc000031, 0xfc1e07ff, 0x100000),
   (0xfc000032, 0xfc00f83f, 0x21),
   (0xfc000032, 0xfc00f83f, 0x32),
   (0xfc000033, 0xfc00f83f, 0x21),
   (0xfc000033, 0xfc00f83f, 0x32),
   (0xfc000034, 0xfc1f07ff, 0x10000000),
   (0xfc000034, 0xfc1e07ff, 0x1),
   (0xfc000035, 0xfc1f07ff, 0x10000000),
   (0xfc000035, 0xfc1e07ff, 0x1),
   (0xfc000038, 0xfc00003f, 0x21),
   (0xfc000038, 0xfc00003f, 0x32),
   (0xfc000039, 0xfc00003f, 0x21),
   (0xfc000039, 0xfc00003f, 0x32),
   (0xfc00003a, 0xfc00003f, 0x21),
   (0xfc00003a, 0xfc00003f, 0x32),
   (0xfc00003b, 0xfc00003f, 0x21),
   (0xfc00003b, 0xfc00003f, 0x32),
   (0xfc00003c, 0xfc00003f, 0x21),
   (0xfc00003c, 0xfc00003f, 0x32),
   (0xfc00003d, 0xfc00003f, 0x21),
   (0xfc00003d, 0xfc00003f, 0x32),
   (0xfc00003e, 0xfc00003f, 0x21),
   (0xfc00003e, 0xfc00003f, 0x32),
   (0xfc00003f, 0xfc00003f, 0x21),
   (0xfc00003f, 0xfc00003f, 0x32),
   (0xfc000040, 0xfc6007ff, 0x23),
   (0xfc000044, 0xfc2007ff, 0x400000),
   (0xfc000045, 0xfc2007ff, 0x400000),
   (0xfc000046, 0xfc2001ff, 0x400000),
   (0xfc000047, 0xfc2001ff, 0x400000),
   (0xfc000048, 0xfc0007ff, 0x10000000000),
   (0xfc000049, 0xfc0007ff, 0x10000000000),
   (0xfc00004a, 0xfc0001ff, 0x10000000000),
   (0xfc00004c, 0xfc1fffff, 0x23),
   (0xfc00004d, 0xfc1fffff, 0x23),
   (0xfc000050, 0xfc1f07ff, 0x23),
   (0xfc000051, 0xfc1f07ff, 0x23),
   (0xfc000080, 0xfc63ffff, 0x23),
   (0xfc000084, 0xfc2003ff, 0x400000),
   (0xfc000085, 0xfc2003ff, 0x400000),
   (0xfc000086, 0xfc2001ff, 0x400000),
   (0xfc000087, 0xfc2001ff, 0x400000),
   (0xfc00008c, 0xfc1fffff, 0x23),
   (0xfc00008d, 0xfc1fffff, 0x23),
   (0xfc000090, 0xfc1f07ff, 0x23),
   (0xfc000091, 0xfc1f07ff, 0x23),
   (0xfc0000c4, 0xfc2003ff, 0x400000),
   (0xfc0000c5, 0xfc2003ff, 0x400000),
   (0xfc0000c6, 0xfc2001ff, 0x400000),
   (0xfc0000c7, 0xfc2001ff, 0x400000),
   (0xfc0000c8, 0xfc0007ff, 0x10000000000),
   (0xfc000100, 0xfc6007ff, 0x10000000),
   (0xfc000104, 0xfc0007ff, 0x400000),
   (0xfc000108, 0xfc6007ff, 0x10000000000),
   (0xfc00010c, 0xfc7e0fff, 0x60400000),
   (0xfc00010c, 0xfc7f0fff, 0x23),
   (0xfc00010d, 0xfc7e0fff, 0x60400000),
   (0xfc00010d, 0xfc7f0fff, 0x23),
   (0xfc000110, 0xfc1f07ff, 0x23)]

/-- ppc-opc.c:7427-7566. -/
def opcodes33 : List (Nat × Nat × Nat) :=
  [(0xfc000111, 0xfc1f07ff, 0x23),
   (0xfc00011c, 0xfc1f07ff, 0x10000000),
   (0xfc00011d, 0xfc1f07ff, 0x10000000),
   (0xfc00011e, 0xfc1f07ff, 0x10000000),
   (0xfc00011f, 0xfc1f07ff, 0x10000000),
   (0xfc000140, 0xfc7f07ff, 0x10000000),
   (0xfc000144, 0xfc0007ff, 0x400000),
   (0xfc000148, 0xfc6007ff, 0x10000000000),
   (0xfc000184, 0xfc0003ff, 0x400000),
   (0xfc0001c4, 0xfc0003ff, 0x400000),
   (0xfc0001c6, 0xfc2001ff, 0x400000),
   (0xfc0001c7, 0xfc2001ff, 0x400000),
   (0xfc000204, 0xfc2007ff, 0x400000),
   (0xfc000205, 0xfc2007ff, 0x400000),
   (0xfc000210, 0xfc1f07ff, 0x23),
   (0xfc000211, 0xfc1f07ff, 0x23),
   (0xfc000244, 0xfc0007ff, 0x400000),
   (0xfc000245, 0xfc0007ff, 0x400000),
   (0xfc000284, 0xfc2007ff, 0x400000),
   (0xfc000285, 0xfc2007ff, 0x400000),
   (0xfc0002c4, 0xfc0007ff, 0x400000),
   (0xfc0002c5, 0xfc0007ff, 0x400000),
   (0xfc000308, 0xfc0007ff, 0x10000000000),
   (0xfc000309, 0xfc0007ff, 0x10000000000),
   (0xfc000310, 0xfc1f07ff, 0x100000),
   (0xfc000311, 0xfc1f07ff, 0x100000),
   (0xfc000348, 0xfc0007ff, 0x10000000000),
   (0xfc000349, 0xfc0007ff, 0x10000000000),
   (0xfc000350, 0xfc1f07ff, 0x100000),
   (0xfc000351, 0xfc1f07ff, 0x100000),
   (0xfc000388, 0xfc0007ff, 0x10000000000),
   (0xfc000389, 0xfc0007ff, 0x10000000000),
   (0xfc000390, 0xfc1f07ff, 0x100000),
   (0xfc000391, 0xfc1f07ff, 0x100000),
   (0xfc0003c8, 0xfc0007ff, 0x10000000000),
   (0xfc0003c9, 0xfc0007ff, 0x10000000000),
   (0xfc0003d0, 0xfc1f07ff, 0x100000),
   (0xfc0003d1, 0xfc1f07ff, 0x100000),
   (0xfc000404, 0xfc2007ff, 0x400000),
   (0xfc000405, 0xfc2007ff, 0x400000),
   (0xfc000408, 0xfc0007ff, 0x10000000000),
   (0xfc000409, 0xfc0007ff, 0x10000000000),
   (0xfc000444, 0xfc2007ff, 0x400000),
   (0xfc000445, 0xfc2007ff, 0x400000),
   (0xfc000448, 0xfc0007ff, 0x10000000000),
   (0xfc000449, 0xfc0007ff, 0x10000000000),
   (0xfc00048e, 0xfc1fffff, 0x23),
   (0xfc00048f, 0xfc1fffff, 0x23),
   (0xfc01048e, 0xfc1fffff, 0x10000000000),
   (0xfc14048e, 0xfc1f07ff, 0x10000000000),
   (0xfc15048e, 0xfc1fc7ff, 0x10000000000),
   (0xfc16048e, 0xfc1f07ff, 0x10000000000),
   (0xfc17048e, 0xfc1fe7ff, 0x10000000000),
   (0xfc18048e, 0xfc1fffff, 0x10000000000),
   (0xfc000504, 0xfc0007ff, 0x400000),
   (0xfc000508, 0xfc6007ff, 0x10000000000),
   (0xfc000544, 0xfc0007ff, 0x400000),
   (0xfc000546, 0xfc4007ff, 0x10000000000),
   (0xfc000588, 0xfc0007ff, 0x10000000000),
   (0xfc00058e, 0xfc0007ff, 0x60400000),
   (0xfc00058e, 0xfc0007ff, 0x23),
   (0xfc00058f, 0xfc0007ff, 0x60400000),
   (0xfc00058f, 0xfc0007ff, 0x23),
   (0xfc000604, 0xfc2007ff, 0x400000),
   (0xfc000605, 0xfc2007ff, 0x400000),
   (0xfc000644, 0xfc2007ff, 0x400000),
   (0xfc000645, 0xfc2007ff, 0x400000),
   (0xfc000648, 0xfc1f07ff, 0x10000000000),
   (0xfc020648, 0xfc1f07ff, 0x10000000000),
   (0xfc080648, 0xfc1f07ff, 0x10000000000),
   (0xfc100648, 0xfc1f07ff, 0x10000000000),
   (0xfc120648, 0xfc1f07ff, 0x10000000000),
   (0xfc1b0648, 0xfc1f07ff, 0x10000000000),
   (0xfc1b0649, 0xfc1f07ff, 0x10000000000),
   (0xfc00065c, 0xfc1f07ff, 0x88),
   (0xfc00065c, 0xfc1f07ff, 0x40000000),
   (0xfc00065d, 0xfc1f07ff, 0x88),
   (0xfc00065d, 0xfc1f07ff, 0x40000000),
   (0xfc00065e, 0xfc1f07ff, 0x88),
   (0xfc00065e, 0xfc1f07ff, 0x40000000),
   (0xfc00065f, 0xfc1f07ff, 0x88),
   (0xfc00065f, 0xfc1f07ff, 0x40000000),
   (0xfc000684, 0xfc2007ff, 0x400000),
   (0xfc000685, 0xfc2007ff, 0x400000),
   (0xfc010688, 0xfc1f07ff, 0x10000000000),
   (0xfc020688, 0xfc1f07ff, 0x10000000000),
   (0xfc090688, 0xfc1f07ff, 0x10000000000),
   (0xfc0a0688, 0xfc1f07ff, 0x10000000000),
   (0xfc110688, 0xfc1f07ff, 0x10000000000),
   (0xfc140688, 0xfc1f07ff, 0x10000000000),
   (0xfc140689, 0xfc1f07ff, 0x10000000000),
   (0xfc160688, 0xfc1f07ff, 0x10000000000),
   (0xfc190688, 0xfc1f07ff, 0x10000000000),
   (0xfc00068c, 0xfc0007ff, 0x1000000000),
   (0xfc00069c, 0xfc1f07ff, 0x88),
   (0xfc00069c, 0xfc1f07ff, 0x40000000),
   (0xfc00069d, 0xfc1f07ff, 0x88),
   (0xfc00069d, 0xfc1f07ff, 0x40000000),
   (0xfc0006c4, 0xfc2007ff, 0x400000),
   (0xfc0006c5, 0xfc2007ff, 0x400000)]

/-- ppc-opc.c:7568-7579. -/
def opcodes34 : List (Nat × Nat × Nat) :=
  [(0xfc0006c8, 0xfc0007ff, 0x10000000000),
   (0xfc00075c, 0xfc1f07ff, 0x30000000),
   (0xfc00075d, 0xfc1f07ff, 0x30000000),
   (0xfc00075e, 0xfc1f07ff, 0x30000000),
   (0xfc00075f, 0xfc1f07ff, 0x30000000),
   (0xfc00078c, 0xfc0007ff, 0x1000000000),
   (0xfc00079c, 0xfc1f07ff, 0x30000000),
   (0xfc00079d, 0xfc1f07ff, 0x30000000)]

/-- ppc-opc.c:3532-7580 `powerpc_opcodes_qt`. -/
def opcodes : List (Nat × Nat × Nat) :=
  List.flatten [opcodes0, opcodes1, opcodes2, opcodes3, opcodes4, opcodes5, opcodes6, opcodes7, opcodes8, opcodes9, opcodes10, opcodes11, opcodes12, opcodes13, opcodes14, opcodes15, opcodes16, opcodes17, opcodes18, opcodes19, opcodes20, opcodes21, opcodes22, opcodes23, opcodes24, opcodes25, opcodes26, opcodes27, opcodes28, opcodes29, opcodes30, opcodes31, opcodes32, opcodes33, opcodes34]

end Stats
