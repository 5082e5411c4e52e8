import Verif.Conform.Basic

/-!
# Conformance: text output and input

Generated from `/repo/test/p1788/flavor/infsup/setbased/test_mpfr_bin_ieee754_flavor_io.cpp`: the assertions of the project's own test suite, evaluated in the
model by the kernel.  Each entry is (line in that file, value of the assertion).  These are tests of the model, not proofs of
properties.
-/

set_option maxRecDepth 100000

namespace P1788.Conform

/-- `minimal_empty_output_test`: commands to the stream and the text they append. -/
example : (checkOut {} [
    ([.putItv (Itv.empty)],
      "[empty]"),
    ([.case true, .putItv (Itv.empty)],
      "[EMPTY]"),
    ([.numRep .hex, .case false, .stringWidth 12, .putItv (Itv.empty)],
      "[  empty   ]"),
    ([.punct false, .case true, .putItv (Itv.empty)],
      "   EMPTY    "),
    ([.stringWidth 11, .putItv (Itv.empty)],
      "   EMPTY   "),
    ([.numRep .dec, .punct true, .case false, .putItv (Itv.empty)],
      "[  empty  ]"),
    ([.dec true, .case false, .stringWidth 0, .special .noBounds, .putItv (Itv.empty)],
      "[ ]"),
    ([.numRep .hex, .case true, .putItv (Itv.empty)],
      "[ ]"),
    ([.case false, .stringWidth 9, .putItv (Itv.empty)],
      "[       ]"),
    ([.punct false, .case true, .putItv (Itv.empty)],
      "  EMPTY  "),
    ([.numRep .dec, .case false, .stringWidth 0, .special .bounds, .punct true, .putItv (Itv.empty)],
      "[inf,-inf]"),
    ([.dec false, .case true, .putItv (Itv.empty)],
      "[INF,-INF]"),
    ([.numRep .hex, .case false, .stringWidth 9, .putItv (Itv.empty)],
      "[inf,-inf]"),
    ([.stringWidth 15, .putItv (Itv.empty)],
      "[  inf,   -inf]"),
    ([.stringWidth 16, .putItv (Itv.empty)],
      "[   inf,   -inf]"),
    ([.numRep .dec, .stringWidth 17, .case true, .putItv (Itv.empty)],
      "[   INF,    -INF]"),
    ([.stringWidth 18, .case false, .putItv (Itv.empty)],
      "[    inf,    -inf]"),
    ([.punct false, .case true, .putItv (Itv.empty)],
      "     INF      -INF"),
    ([.numRep .hex, .case true, .stringWidth 0, .putItv (Itv.empty)],
      "INF -INF"),
    ([.special .text, .punct true, .width 10, .putItv (Itv.empty)],
      "[        EMPTY        ]"),
    ([.special .bounds, .putItv (Itv.empty)],
      "[       INF,      -INF]"),
    ([.stringWidth 23, .putItv (Itv.empty)],
      "[       INF,      -INF]"),
    ([.stringWidth 25, .putItv (Itv.empty)],
      "[        INF,       -INF]"),
    ([.special .noBounds, .putItv (Itv.empty)],
      "[                       ]"),
    ([.stringWidth 0, .putItv (Itv.empty)],
      "[                     ]"),
    ([.special .bounds, .prec 27, .case false, .putItv (Itv.empty)],
      "[       inf,      -inf]")]).all id = true := by
  decide +kernel

/-- `minimal_empty_dec_output_test`: commands to the stream and the text they append. -/
example : (checkOut {} [
    ([.putDItv (DItv.empty)],
      "[empty]"),
    ([.case true, .putDItv (DItv.empty)],
      "[EMPTY]"),
    ([.numRep .hex, .case false, .stringWidth 12, .putDItv (DItv.empty)],
      "[  empty   ]"),
    ([.punct false, .case true, .putDItv (DItv.empty)],
      "   EMPTY    "),
    ([.stringWidth 11, .putDItv (DItv.empty)],
      "   EMPTY   "),
    ([.numRep .dec, .punct true, .case false, .putDItv (DItv.empty)],
      "[  empty  ]"),
    ([.case false, .stringWidth 0, .special .noBounds, .putDItv (DItv.empty)],
      "[ ]"),
    ([.dec true, .numRep .hex, .case true, .putDItv (DItv.empty)],
      "[ ]"),
    ([.case false, .stringWidth 9, .putDItv (DItv.empty)],
      "[       ]"),
    ([.punct false, .case true, .putDItv (DItv.empty)],
      "  EMPTY  "),
    ([.numRep .dec, .case false, .stringWidth 0, .special .bounds, .punct true, .putDItv (DItv.empty)],
      "[inf,-inf]"),
    ([.dec false, .numRep .hex, .case true, .putDItv (DItv.empty)],
      "[INF,-INF]"),
    ([.case false, .stringWidth 9, .putDItv (DItv.empty)],
      "[inf,-inf]"),
    ([.stringWidth 15, .putDItv (DItv.empty)],
      "[  inf,   -inf]"),
    ([.stringWidth 16, .putDItv (DItv.empty)],
      "[   inf,   -inf]"),
    ([.numRep .dec, .stringWidth 17, .case true, .putDItv (DItv.empty)],
      "[   INF,    -INF]"),
    ([.numRep .hex, .stringWidth 18, .case false, .putDItv (DItv.empty)],
      "[    inf,    -inf]"),
    ([.punct false, .case true, .putDItv (DItv.empty)],
      "     INF      -INF"),
    ([.numRep .dec, .case false, .stringWidth 0, .putDItv (DItv.empty)],
      "inf -inf"),
    ([.numRep .hex, .special .text, .punct true, .putDItv (DItv.empty)],
      "[empty]"),
    ([.form .infSup, .width 10, .putDItv (DItv.empty)],
      "[        empty        ]"),
    ([.special .bounds, .putDItv (DItv.empty)],
      "[       inf,      -inf]"),
    ([.stringWidth 23, .putDItv (DItv.empty)],
      "[       inf,      -inf]"),
    ([.stringWidth 25, .putDItv (DItv.empty)],
      "[        inf,       -inf]"),
    ([.special .noBounds, .putDItv (DItv.empty)],
      "[                       ]"),
    ([.stringWidth 0, .putDItv (DItv.empty)],
      "[                     ]"),
    ([.special .bounds, .prec 27, .case true, .putDItv (DItv.empty)],
      "[       INF,      -INF]")]).all id = true := by
  decide +kernel

/-- `minimal_entire_output_test`: commands to the stream and the text they append. -/
example : (checkOut {} [
    ([.putItv (Itv.entire)],
      "[entire]"),
    ([.case true, .putItv (Itv.entire)],
      "[ENTIRE]"),
    ([.case false, .stringWidth 12, .putItv (Itv.entire)],
      "[  entire  ]"),
    ([.punct false, .case true, .putItv (Itv.entire)],
      "   ENTIRE   "),
    ([.numRep .hex, .stringWidth 11, .putItv (Itv.entire)],
      "  ENTIRE   "),
    ([.punct true, .case false, .putItv (Itv.entire)],
      "[ entire  ]"),
    ([.numRep .dec, .case false, .stringWidth 0, .special .noBounds, .putItv (Itv.entire)],
      "[,]"),
    ([.dec true, .numRep .hex, .case true, .putItv (Itv.entire)],
      "[,]"),
    ([.numRep .dec, .case false, .stringWidth 9, .putItv (Itv.entire)],
      "[   ,   ]"),
    ([.punct false, .case true, .putItv (Itv.entire)],
      " ENTIRE  "),
    ([.numRep .hex, .case false, .stringWidth 0, .special .bounds, .punct true, .putItv (Itv.entire)],
      "[-inf,inf]"),
    ([.case true, .putItv (Itv.entire)],
      "[-INF,INF]"),
    ([.case false, .stringWidth 6, .putItv (Itv.entire)],
      "[-inf,inf]"),
    ([.dec false, .numRep .dec, .stringWidth 15, .putItv (Itv.entire)],
      "[  -inf,   inf]"),
    ([.stringWidth 16, .case true, .putItv (Itv.entire)],
      "[   -INF,   INF]"),
    ([.numRep .hex, .stringWidth 17, .putItv (Itv.entire)],
      "[   -INF,    INF]"),
    ([.stringWidth 18, .case false, .putItv (Itv.entire)],
      "[    -inf,    inf]"),
    ([.numRep .dec, .punct false, .case true, .putItv (Itv.entire)],
      "     -INF      INF"),
    ([.stringWidth 0, .putItv (Itv.entire)],
      "-INF INF"),
    ([.special .text, .punct true, .form .infSup, .width 10, .putItv (Itv.entire)],
      "[        ENTIRE       ]"),
    ([.special .bounds, .putItv (Itv.entire)],
      "[      -INF,       INF]"),
    ([.stringWidth 23, .putItv (Itv.entire)],
      "[      -INF,       INF]"),
    ([.stringWidth 25, .putItv (Itv.entire)],
      "[       -INF,        INF]"),
    ([.special .noBounds, .putItv (Itv.entire)],
      "[           ,           ]"),
    ([.stringWidth 0, .putItv (Itv.entire)],
      "[          ,          ]"),
    ([.special .bounds, .prec 27, .case true, .putItv (Itv.entire)],
      "[      -INF,       INF]")]).all id = true := by
  decide +kernel

/-- `minimal_entire_dec_output_test`: commands to the stream and the text they append. -/
example : (checkOut {} [
    ([.putDItv (⟨⟨.ninf, .pinf⟩, .trv⟩)],
      "[entire]_trv"),
    ([.case true, .putDItv (⟨⟨.ninf, .pinf⟩, .dac⟩)],
      "[ENTIRE]_DAC"),
    ([.numRep .hex, .case false, .stringWidth 13, .putDItv (⟨⟨.ninf, .pinf⟩, .trv⟩)],
      "[entire ]_trv"),
    ([.punct false, .case true, .putDItv (⟨⟨.ninf, .pinf⟩, .defd⟩)],
      " ENTIRE   DEF"),
    ([.numRep .dec, .stringWidth 11, .putDItv (⟨⟨.ninf, .pinf⟩, .dac⟩)],
      "ENTIRE  DAC"),
    ([.numRep .hex, .punct true, .case false, .putDItv (⟨⟨.ninf, .pinf⟩, .trv⟩)],
      "[entire]_trv"),
    ([.dec true, .numRep .dec, .case false, .stringWidth 0, .special .noBounds, .putDItv (⟨⟨.ninf, .pinf⟩, .defd⟩)],
      "[,]_8"),
    ([.case true, .putDItv (⟨⟨.ninf, .pinf⟩, .trv⟩)],
      "[,]_4"),
    ([.case false, .stringWidth 9, .putDItv (⟨⟨.ninf, .pinf⟩, .defd⟩)],
      "[  ,  ]_8"),
    ([.numRep .hex, .punct false, .case true, .putDItv (⟨⟨.ninf, .pinf⟩, .dac⟩)],
      "ENTIRE 12"),
    ([.dec false, .numRep .dec, .case false, .stringWidth 0, .special .bounds, .punct true, .putDItv (⟨⟨.ninf, .pinf⟩, .trv⟩)],
      "[-inf,inf]_trv"),
    ([.case true, .putDItv (⟨⟨.ninf, .pinf⟩, .dac⟩)],
      "[-INF,INF]_DAC"),
    ([.numRep .hex, .case false, .stringWidth 6, .putDItv (⟨⟨.ninf, .pinf⟩, .trv⟩)],
      "[-inf,inf]_trv"),
    ([.stringWidth 15, .putDItv (⟨⟨.ninf, .pinf⟩, .defd⟩)],
      "[-inf, inf]_def"),
    ([.numRep .dec, .stringWidth 16, .case true, .putDItv (⟨⟨.ninf, .pinf⟩, .dac⟩)],
      "[ -INF, INF]_DAC"),
    ([.stringWidth 17, .putDItv (⟨⟨.ninf, .pinf⟩, .trv⟩)],
      "[ -INF,  INF]_TRV"),
    ([.numRep .hex, .stringWidth 18, .case false, .putDItv (⟨⟨.ninf, .pinf⟩, .defd⟩)],
      "[  -inf,  inf]_def"),
    ([.numRep .dec, .punct false, .case true, .putDItv (⟨⟨.ninf, .pinf⟩, .trv⟩)],
      "   -INF    INF TRV"),
    ([.stringWidth 0, .putDItv (⟨⟨.ninf, .pinf⟩, .dac⟩)],
      "-INF INF DAC"),
    ([.case false, .special .text, .punct true, .form .infSup, .width 10, .putDItv (⟨⟨.ninf, .pinf⟩, .trv⟩)],
      "[        entire       ]_trv"),
    ([.special .bounds, .putDItv (⟨⟨.ninf, .pinf⟩, .defd⟩)],
      "[      -inf,       inf]_def"),
    ([.stringWidth 27, .putDItv (⟨⟨.ninf, .pinf⟩, .dac⟩)],
      "[      -inf,       inf]_dac"),
    ([.stringWidth 29, .putDItv (⟨⟨.ninf, .pinf⟩, .trv⟩)],
      "[       -inf,        inf]_trv"),
    ([.special .noBounds, .putDItv (⟨⟨.ninf, .pinf⟩, .defd⟩)],
      "[           ,           ]_def"),
    ([.stringWidth 0, .putDItv (⟨⟨.ninf, .pinf⟩, .dac⟩)],
      "[          ,          ]_dac"),
    ([.special .bounds, .prec 27, .case true, .putDItv (⟨⟨.ninf, .pinf⟩, .trv⟩)],
      "[      -INF,       INF]_TRV")]).all id = true := by
  decide +kernel

/-- `minimal_nai_output_test`: commands to the stream and the text they append. -/
example : (checkOut {} [
    ([.putDItv (DItv.nai)],
      "[nai]"),
    ([.numRep .hex, .case true, .putDItv (DItv.nai)],
      "[NAI]"),
    ([.numRep .dec, .case false, .stringWidth 12, .putDItv (DItv.nai)],
      "[   nai    ]"),
    ([.dec true, .punct false, .case true, .numRep .hex, .putDItv (DItv.nai)],
      "    NAI     "),
    ([.stringWidth 11, .numRep .dec, .putDItv (DItv.nai)],
      "    NAI    "),
    ([.dec false, .punct true, .case false, .putDItv (DItv.nai)],
      "[   nai   ]"),
    ([.case true, .special .text, .punct false, .form .infSup, .punct true, .width 10, .putDItv (DItv.nai)],
      "[         NAI         ]"),
    ([.special .bounds, .putDItv (DItv.nai)],
      "[         NAI         ]"),
    ([.stringWidth 23, .putDItv (DItv.nai)],
      "[         NAI         ]"),
    ([.stringWidth 25, .putDItv (DItv.nai)],
      "[          NAI          ]"),
    ([.special .noBounds, .putDItv (DItv.nai)],
      "[          NAI          ]"),
    ([.stringWidth 0, .putDItv (DItv.nai)],
      "[         NAI         ]"),
    ([.special .bounds, .prec 27, .case false, .putDItv (DItv.nai)],
      "[         nai         ]")]).all id = true := by
  decide +kernel

/-- `minimal_bare_interval_output_test`: commands to the stream and the text they append. -/
example : (checkOut {} [
    ([.putItv (⟨(f (3602879701896397) (-55)), (f (3602879701896397) (-55))⟩)],
      "[0.1,0.100001]"),
    ([.case true, .putItv (⟨(f (-3602879701896397) (-55)), (f (3602879701896397) (-55))⟩)],
      "[-0.100001,0.100001]"),
    ([.case false, .stringWidth 22, .putItv (⟨(f (-3602879701896397) (-55)), (f (3602879701896397) (-55))⟩)],
      "[ -0.100001, 0.100001]"),
    ([.punct false, .case true, .putItv (⟨(f (-3602879701896397) (-55)), (f (3602879701896397) (-55))⟩)],
      "  -0.100001   0.100001"),
    ([.numRep .hex, .stringWidth 0, .putItv (⟨(f (-3602879701896397) (-55)), (f (5854679515581645) (-52))⟩)],
      "-0X1.999999999999AP-4 0X1.4CCCCCCCCCCCDP+0"),
    ([.punct true, .case false, .prec 5, .width 15, .putItv (⟨(f (-3602879701896397) (-55)), (f (5854679515581645) (-52))⟩)],
      "[  -0x1.9999ap-4,   0x1.4cccdp+0]"),
    ([.stringWidth 35, .special .noBounds, .putItv (⟨(f (3602879701896397) (-55)), (f (5854679515581645) (-52))⟩)],
      "[    0x1.99999p-4,    0x1.4cccdp+0]"),
    ([.stringWidth 0, .prec 20, .putItv (⟨(f (3602879701896397) (-55)), (f (5854679515581645) (-52))⟩)],
      "[0x1.999999999999a0000000p-4,0x1.4cccccccccccd0000000p+0]"),
    ([.numRep .dec, .prec 0, .width 10, .putItv (⟨(f (3602879701896397) (-55)), (f (3602879701896397) (-55))⟩)],
      "[  0.100000,  0.100001]"),
    ([.case true, .putItv (⟨(f (-3602879701896397) (-55)), (f (3602879701896397) (-55))⟩)],
      "[ -0.100001,  0.100001]"),
    ([.case false, .stringWidth 25, .prec 7, .putItv (⟨(f (3602879701896397) (-55)), (f (3602879701896397) (-55))⟩)],
      "[  0.1000000,  0.1000001]"),
    ([.numRep .decSci, .stringWidth 0, .case true, .putItv (⟨(f (3602879701896397) (-55)), (f (3602879701896397) (-55))⟩)],
      "[       0.1, 0.1000001]"),
    ([.numRep .sci, .putItv (⟨(f (3602879701896397) (-55)), (f (5854679515581645) (-52))⟩)],
      "[1.0000000E-01,1.3000001E+00]"),
    ([.case false, .putItv (⟨.ninf, (f (3602879701896397) (-55))⟩)],
      "[      -inf,1.0000001e-01]"),
    ([.numRep .decSci, .case true, .putItv (⟨(f (3602879701896397) (-55)), .pinf⟩)],
      "[       0.1,       INF]"),
    ([.numRep .hex, .putItv (⟨.ninf, (f (3602879701896397) (-55))⟩)],
      "[      -INF,0X1.999999AP-4]"),
    ([.numRep .dec, .putItv (⟨(f (3602879701896397) (-55)), .pinf⟩)],
      "[ 0.1000000,       INF]")]).all id = true := by
  decide +kernel

/-- `minimal_decorated_interval_output_test`: commands to the stream and the text they append. -/
example : (checkOut {} [
    ([.putDItv (⟨⟨(f (3602879701896397) (-55)), (f (3602879701896397) (-55))⟩, .trv⟩)],
      "[0.1,0.100001]_trv"),
    ([.case true, .putDItv (⟨⟨(f (-3602879701896397) (-55)), (f (3602879701896397) (-55))⟩, .defd⟩)],
      "[-0.100001,0.100001]_DEF"),
    ([.case false, .stringWidth 26, .putDItv (⟨⟨(f (-3602879701896397) (-55)), (f (3602879701896397) (-55))⟩, .dac⟩)],
      "[ -0.100001, 0.100001]_dac"),
    ([.punct false, .case true, .putDItv (⟨⟨(f (-3602879701896397) (-55)), (f (3602879701896397) (-55))⟩, .com⟩)],
      "  -0.100001   0.100001 COM"),
    ([.dec true, .numRep .hex, .stringWidth 0, .putDItv (⟨⟨(f (-3602879701896397) (-55)), (f (5854679515581645) (-52))⟩, .trv⟩)],
      "-0X1.999999999999AP-4 0X1.4CCCCCCCCCCCDP+0 4"),
    ([.punct true, .case false, .prec 5, .width 15, .putDItv (⟨⟨(f (-3602879701896397) (-55)), (f (5854679515581645) (-52))⟩, .defd⟩)],
      "[  -0x1.9999ap-4,   0x1.4cccdp+0]_8"),
    ([.stringWidth 35, .special .noBounds, .putDItv (⟨⟨(f (3602879701896397) (-55)), (f (5854679515581645) (-52))⟩, .dac⟩)],
      "[   0x1.99999p-4,   0x1.4cccdp+0]_12"),
    ([.stringWidth 0, .prec 20, .putDItv (⟨⟨(f (3602879701896397) (-55)), (f (5854679515581645) (-52))⟩, .com⟩)],
      "[0x1.999999999999a0000000p-4,0x1.4cccccccccccd0000000p+0]_16"),
    ([.numRep .dec, .prec 0, .width 10, .putDItv (⟨⟨(f (3602879701896397) (-55)), (f (3602879701896397) (-55))⟩, .trv⟩)],
      "[  0.100000,  0.100001]_4"),
    ([.dec false, .case true, .putDItv (⟨⟨(f (-3602879701896397) (-55)), (f (3602879701896397) (-55))⟩, .defd⟩)],
      "[ -0.100001,  0.100001]_DEF"),
    ([.case false, .stringWidth 29, .prec 7, .putDItv (⟨⟨(f (3602879701896397) (-55)), (f (3602879701896397) (-55))⟩, .dac⟩)],
      "[  0.1000000,  0.1000001]_dac"),
    ([.numRep .decSci, .stringWidth 0, .case true, .putDItv (⟨⟨(f (3602879701896397) (-55)), (f (3602879701896397) (-55))⟩, .com⟩)],
      "[       0.1, 0.1000001]_COM"),
    ([.numRep .sci, .putDItv (⟨⟨(f (3602879701896397) (-55)), (f (5854679515581645) (-52))⟩, .trv⟩)],
      "[1.0000000E-01,1.3000001E+00]_TRV"),
    ([.case false, .putDItv (⟨⟨.ninf, (f (3602879701896397) (-55))⟩, .defd⟩)],
      "[      -inf,1.0000001e-01]_def"),
    ([.numRep .decSci, .case true, .putDItv (⟨⟨(f (3602879701896397) (-55)), .pinf⟩, .dac⟩)],
      "[       0.1,       INF]_DAC"),
    ([.numRep .hex, .putDItv (⟨⟨.ninf, (f (3602879701896397) (-55))⟩, .trv⟩)],
      "[      -INF,0X1.999999AP-4]_TRV"),
    ([.numRep .dec, .putDItv (⟨⟨(f (3602879701896397) (-55)), .pinf⟩, .defd⟩)],
      "[ 0.1000000,       INF]_DEF")]).all id = true := by
  decide +kernel

/-- `minimal_uncertain_interval_output_test`: commands to the stream and the text they append. -/
example : (checkOut {} [
    ([.form .uncertain, .putItv (⟨.ninf, .pinf⟩)],
      "0.000000??"),
    ([.putItv (⟨(f (3602879701896397) (-55)), .pinf⟩)],
      "0.100000??u"),
    ([.putItv (⟨.ninf, (f (3602879701896397) (-55))⟩)],
      "0.100001??d"),
    ([.ucExp true, .putItv (⟨.ninf, .pinf⟩)],
      "0.000000??e+00"),
    ([.putItv (⟨(f (3602879701896397) (-55)), .pinf⟩)],
      "1.000000??ue-01"),
    ([.putItv (⟨.ninf, (f (3602879701896397) (-55))⟩)],
      "1.000001??de-01"),
    ([.prec 1, .stringWidth 20, .case true, .putItv (⟨.ninf, .pinf⟩)],
      "           0.0??E+00"),
    ([.putItv (⟨(f (3602879701896397) (-55)), .pinf⟩)],
      "          1.0??UE-01"),
    ([.putItv (⟨.ninf, (f (3602879701896397) (-55))⟩)],
      "          1.1??DE-01"),
    ([.ucExp false, .punct false, .putItv (⟨.ninf, .pinf⟩)],
      "               0.0??"),
    ([.putItv (⟨(f (3602879701896397) (-55)), .pinf⟩)],
      "              0.1??U"),
    ([.putItv (⟨.ninf, (f (3602879701896397) (-55))⟩)],
      "              0.2??D"),
    ([.prec 5, .stringWidth 0, .case false, .putItv (⟨(f (3602879701896397) (-55)), (f (3602879701896397) (-54))⟩)],
      "0.15000?5001"),
    ([.form .down, .prec 7, .putItv (⟨(f (3602879701896397) (-55)), (f (3602879701896397) (-54))⟩)],
      "0.2000001?1000001d"),
    ([.form .up, .prec 0, .stringWidth 18, .case true, .putItv (⟨(f (-3602879701896397) (-55)), (f (3602879701896397) (-54))⟩)],
      " -0.100001?300002U"),
    ([.prec 0, .stringWidth 0, .case false, .ucExp true, .putItv (⟨(f (-100) (0)), (f (3602879701896397) (-54))⟩)],
      "-1.000000?1002001ue+02"),
    ([.putItv (⟨(f (-100) (0)), (f 0 0)⟩)],
      "-1.000000?1000000ue+02"),
    ([.putItv (⟨(f (-100) (0)), (f (-3602879701896397) (-54))⟩)],
      "-1.000000?998000ue+02"),
    ([.putItv (⟨(f (-3602879701896397) (-54)), (f 100 0)⟩)],
      "-2.000001?1002000001ue-01"),
    ([.putItv (⟨(f 0 0), (f 100 0)⟩)],
      "0.000000?100000000ue+00"),
    ([.putItv (⟨(f (3602879701896397) (-54)), (f 100 0)⟩)],
      "2.000000?998000000ue-01"),
    ([.form .down, .putItv (⟨(f (-3602879701896397) (-54)), (f 100 0)⟩)],
      "1.000000?1002001de+02"),
    ([.putItv (⟨(f 0 0), (f 100 0)⟩)],
      "1.000000?1000000de+02"),
    ([.putItv (⟨(f (3602879701896397) (-54)), (f 100 0)⟩)],
      "1.000000?998000de+02"),
    ([.putItv (⟨(f (-100) (0)), (f (3602879701896397) (-54))⟩)],
      "2.000001?1002000001de-01"),
    ([.putItv (⟨(f (-100) (0)), (f 0 0)⟩)],
      "0.000000?100000000de+00"),
    ([.putItv (⟨(f (-100) (0)), (f (-3602879701896397) (-54))⟩)],
      "-2.000000?998000000de-01"),
    ([.form .uncertain, .putItv (⟨(f (-3602879701896397) (-54)), (f 100 0)⟩)],
      "4.990000?5010001e+01"),
    ([.putItv (⟨(f 0 0), (f 100 0)⟩)],
      "5.000000?5000000e+01"),
    ([.putItv (⟨(f (3602879701896397) (-54)), (f 100 0)⟩)],
      "5.010000?4990000e+01"),
    ([.putItv (⟨(f (-100) (0)), (f (3602879701896397) (-54))⟩)],
      "-4.990000?5010001e+01"),
    ([.putItv (⟨(f (-100) (0)), (f 0 0)⟩)],
      "-5.000000?5000000e+01"),
    ([.putItv (⟨(f (-100) (0)), (f (-3602879701896397) (-54))⟩)],
      "-5.010000?4990000e+01"),
    ([.form .uncertain, .case true, .special .bounds, .punct false, .putItv (Itv.empty)],
      "INF -INF"),
    ([.special .text, .punct true, .putItv (Itv.empty)],
      "[EMPTY]")]).all id = true := by
  decide +kernel

/-- `minimal_uncertain_interval_dec_output_test`: commands to the stream and the text they append. -/
example : (checkOut {} [
    ([.form .uncertain, .putDItv (⟨⟨.ninf, .pinf⟩, .trv⟩)],
      "0.000000??_trv"),
    ([.putDItv (⟨⟨(f (3602879701896397) (-55)), .pinf⟩, .defd⟩)],
      "0.100000??u_def"),
    ([.putDItv (⟨⟨.ninf, (f (3602879701896397) (-55))⟩, .dac⟩)],
      "0.100001??d_dac"),
    ([.ucExp true, .putDItv (⟨⟨.ninf, .pinf⟩, .trv⟩)],
      "0.000000??e+00_trv"),
    ([.putDItv (⟨⟨(f (3602879701896397) (-55)), .pinf⟩, .defd⟩)],
      "1.000000??ue-01_def"),
    ([.putDItv (⟨⟨.ninf, (f (3602879701896397) (-55))⟩, .dac⟩)],
      "1.000001??de-01_dac"),
    ([.prec 1, .stringWidth 20, .case true, .putDItv (⟨⟨.ninf, .pinf⟩, .trv⟩)],
      "       0.0??E+00_TRV"),
    ([.putDItv (⟨⟨(f (3602879701896397) (-55)), .pinf⟩, .defd⟩)],
      "      1.0??UE-01_DEF"),
    ([.putDItv (⟨⟨.ninf, (f (3602879701896397) (-55))⟩, .dac⟩)],
      "      1.1??DE-01_DAC"),
    ([.ucExp false, .punct false, .putDItv (⟨⟨.ninf, .pinf⟩, .trv⟩)],
      "           0.0?? TRV"),
    ([.putDItv (⟨⟨(f (3602879701896397) (-55)), .pinf⟩, .defd⟩)],
      "          0.1??U DEF"),
    ([.putDItv (⟨⟨.ninf, (f (3602879701896397) (-55))⟩, .dac⟩)],
      "          0.2??D DAC"),
    ([.prec 5, .stringWidth 0, .case false, .dec true, .putDItv (⟨⟨(f (3602879701896397) (-55)), (f (3602879701896397) (-54))⟩, .trv⟩)],
      "0.15000?5001 4"),
    ([.form .down, .prec 7, .putDItv (⟨⟨(f (3602879701896397) (-55)), (f (3602879701896397) (-54))⟩, .defd⟩)],
      "0.2000001?1000001d 8"),
    ([.form .up, .prec 0, .stringWidth 21, .case true, .putDItv (⟨⟨(f (-3602879701896397) (-55)), (f (3602879701896397) (-54))⟩, .dac⟩)],
      " -0.100001?300002U 12"),
    ([.prec 0, .stringWidth 0, .case false, .ucExp true, .punct true, .dec false, .putDItv (⟨⟨(f (-100) (0)), (f (3602879701896397) (-54))⟩, .com⟩)],
      "-1.000000?1002001ue+02_com"),
    ([.putDItv (⟨⟨(f (-100) (0)), (f 0 0)⟩, .trv⟩)],
      "-1.000000?1000000ue+02_trv"),
    ([.putDItv (⟨⟨(f (-100) (0)), (f (-3602879701896397) (-54))⟩, .defd⟩)],
      "-1.000000?998000ue+02_def"),
    ([.putDItv (⟨⟨(f (-3602879701896397) (-54)), (f 100 0)⟩, .dac⟩)],
      "-2.000001?1002000001ue-01_dac"),
    ([.putDItv (⟨⟨(f 0 0), (f 100 0)⟩, .com⟩)],
      "0.000000?100000000ue+00_com"),
    ([.putDItv (⟨⟨(f (3602879701896397) (-54)), (f 100 0)⟩, .trv⟩)],
      "2.000000?998000000ue-01_trv"),
    ([.form .down, .putDItv (⟨⟨(f (-3602879701896397) (-54)), (f 100 0)⟩, .defd⟩)],
      "1.000000?1002001de+02_def"),
    ([.putDItv (⟨⟨(f 0 0), (f 100 0)⟩, .dac⟩)],
      "1.000000?1000000de+02_dac"),
    ([.putDItv (⟨⟨(f (3602879701896397) (-54)), (f 100 0)⟩, .com⟩)],
      "1.000000?998000de+02_com"),
    ([.putDItv (⟨⟨(f (-100) (0)), (f (3602879701896397) (-54))⟩, .trv⟩)],
      "2.000001?1002000001de-01_trv"),
    ([.putDItv (⟨⟨(f (-100) (0)), (f 0 0)⟩, .defd⟩)],
      "0.000000?100000000de+00_def"),
    ([.putDItv (⟨⟨(f (-100) (0)), (f (-3602879701896397) (-54))⟩, .dac⟩)],
      "-2.000000?998000000de-01_dac"),
    ([.form .uncertain, .putDItv (⟨⟨(f (-3602879701896397) (-54)), (f 100 0)⟩, .com⟩)],
      "4.990000?5010001e+01_com"),
    ([.putDItv (⟨⟨(f 0 0), (f 100 0)⟩, .trv⟩)],
      "5.000000?5000000e+01_trv"),
    ([.putDItv (⟨⟨(f (3602879701896397) (-54)), (f 100 0)⟩, .defd⟩)],
      "5.010000?4990000e+01_def"),
    ([.putDItv (⟨⟨(f (-100) (0)), (f (3602879701896397) (-54))⟩, .dac⟩)],
      "-4.990000?5010001e+01_dac"),
    ([.putDItv (⟨⟨(f (-100) (0)), (f 0 0)⟩, .com⟩)],
      "-5.000000?5000000e+01_com"),
    ([.putDItv (⟨⟨(f (-100) (0)), (f (-3602879701896397) (-54))⟩, .trv⟩)],
      "-5.010000?4990000e+01_trv"),
    ([.special .bounds, .punct false, .putDItv (DItv.empty)],
      "inf -inf"),
    ([.numRep .hex, .special .text, .punct true, .putDItv (DItv.empty)],
      "[empty]"),
    ([.putDItv (DItv.nai)],
      "[nai]"),
    ([.case true, .punct false, .putDItv (DItv.nai)],
      "NAI")]).all id = true := by
  decide +kernel

example : [
    checkIn "[ Nai  ]" ⟨⟨f 0 0, f 0 0⟩, .ill⟩
      (fun x ok => DItv.isNai (x : DItv) && ok),
    checkIn "[ Nai  ]_ill" ⟨⟨(f (-1) (0)), (f 2 0)⟩, .trv⟩
      (fun x ok => eqD (x) (⟨⟨(f (-1) (0)), (f 2 0)⟩, .trv⟩) && !ok),
    checkIn "[ Nai  ]_trv" ⟨⟨(f (-1) (0)), (f 2 0)⟩, .trv⟩
      (fun x ok => eqD (x) (⟨⟨(f (-1) (0)), (f 2 0)⟩, .trv⟩) && !ok),
    checkIn "[ Empty  ]" ⟨⟨f 0 0, f 0 0⟩, .ill⟩
      (fun x ok => DItv.pred Itv.isEmpty (x : DItv) && ok),
    checkIn "[ Empty  ]_trv" ⟨⟨f 0 0, f 0 0⟩, .ill⟩
      (fun x ok => DItv.pred Itv.isEmpty (x : DItv) && ok),
    checkIn "[ Empty  ]_ill" ⟨⟨(f (-1) (0)), (f 2 0)⟩, .trv⟩
      (fun x ok => eqD (x) (⟨⟨(f (-1) (0)), (f 2 0)⟩, .trv⟩) && !ok),
    checkIn "[  ]" ⟨⟨f 0 0, f 0 0⟩, .ill⟩
      (fun x ok => DItv.pred Itv.isEmpty (x : DItv) && ok),
    checkIn "[  ]_com" ⟨⟨(f (-1) (0)), (f 2 0)⟩, .trv⟩
      (fun x ok => eqD (x) (⟨⟨(f (-1) (0)), (f 2 0)⟩, .trv⟩) && !ok),
    checkIn "[  ]_trv" ⟨⟨f 0 0, f 0 0⟩, .ill⟩
      (fun x ok => DItv.pred Itv.isEmpty (x : DItv) && ok),
    checkIn "[,]" ⟨⟨f 0 0, f 0 0⟩, .ill⟩
      (fun x ok => eqD (x) (DItv.entire) && ok),
    checkIn "[,]_trv" ⟨⟨f 0 0, f 0 0⟩, .ill⟩
      (fun x ok => eqD (x) (⟨⟨.ninf, .pinf⟩, .trv⟩) && ok),
    checkIn "[,]_com" ⟨⟨(f (-1) (0)), (f 2 0)⟩, .trv⟩
      (fun x ok => eqD (x) (⟨⟨(f (-1) (0)), (f 2 0)⟩, .trv⟩) && !ok),
    checkIn "[ entire  ]" ⟨⟨f 0 0, f 0 0⟩, .ill⟩
      (fun x ok => eqD (x) (DItv.entire) && ok),
    checkIn "[ ENTIRE ]_dac" ⟨⟨f 0 0, f 0 0⟩, .ill⟩
      (fun x ok => eqD (x) (⟨⟨.ninf, .pinf⟩, .dac⟩) && ok),
    checkIn "[   Entire ]_com" ⟨⟨(f (-1) (0)), (f 2 0)⟩, .trv⟩
      (fun x ok => eqD (x) (⟨⟨(f (-1) (0)), (f 2 0)⟩, .trv⟩) && !ok),
    checkIn "[ -inf , INF  ]" ⟨⟨f 0 0, f 0 0⟩, .ill⟩
      (fun x ok => eqD (x) (DItv.entire) && ok),
    checkIn "[ -inf, INF ]_def" ⟨⟨f 0 0, f 0 0⟩, .ill⟩
      (fun x ok => eqD (x) (⟨⟨.ninf, .pinf⟩, .defd⟩) && ok),
    checkIn "[ -inf ,  INF ]_com" ⟨⟨(f (-1) (0)), (f 2 0)⟩, .trv⟩
      (fun x ok => eqD (x) (⟨⟨(f (-1) (0)), (f 2 0)⟩, .trv⟩) && !ok),
    checkIn "[-1.0,1.0]" ⟨⟨f 0 0, f 0 0⟩, .ill⟩
      (fun x ok => eqD (x) (⟨⟨(f (-1) (0)), (f 1 0)⟩, .com⟩) && ok),
    checkIn "[  -1.0  ,  1.0  ]_com" ⟨⟨f 0 0, f 0 0⟩, .ill⟩
      (fun x ok => eqD (x) (⟨⟨(f (-1) (0)), (f 1 0)⟩, .com⟩) && ok)].all id = true := by
  decide +kernel

example : [
    checkIn "[  -1.0  , 1.0]_trv" ⟨⟨f 0 0, f 0 0⟩, .ill⟩
      (fun x ok => eqD (x) (⟨⟨(f (-1) (0)), (f 1 0)⟩, .trv⟩) && ok),
    checkIn "[  -1.0  , 1.0]_ill" ⟨⟨(f (-1) (0)), (f 2 0)⟩, .trv⟩
      (fun x ok => eqD (x) (⟨⟨(f (-1) (0)), (f 2 0)⟩, .trv⟩) && !ok),
    checkIn "[  -1.0  , 1.0]_fooo" ⟨⟨(f (-1) (0)), (f 2 0)⟩, .trv⟩
      (fun x ok => eqD (x) (⟨⟨(f (-1) (0)), (f 2 0)⟩, .trv⟩) && !ok),
    checkIn "[  -1.0  , 1.0]_da c" ⟨⟨(f (-1) (0)), (f 2 0)⟩, .trv⟩
      (fun x ok => eqD (x) (⟨⟨(f (-1) (0)), (f 2 0)⟩, .trv⟩) && !ok),
    checkIn "[-1,]" ⟨⟨f 0 0, f 0 0⟩, .ill⟩
      (fun x ok => eqD (x) (⟨⟨(f (-1) (0)), .pinf⟩, .dac⟩) && ok),
    checkIn "[-1.0, +inf]_def" ⟨⟨f 0 0, f 0 0⟩, .ill⟩
      (fun x ok => eqD (x) (⟨⟨(f (-1) (0)), .pinf⟩, .defd⟩) && ok),
    checkIn "[-1.0, +infinity]_def" ⟨⟨f 0 0, f 0 0⟩, .ill⟩
      (fun x ok => eqD (x) (⟨⟨(f (-1) (0)), .pinf⟩, .defd⟩) && ok),
    checkIn "[-1.0,]_com" ⟨⟨(f (-1) (0)), (f 2 0)⟩, .trv⟩
      (fun x ok => eqD (x) (⟨⟨(f (-1) (0)), (f 2 0)⟩, .trv⟩) && !ok),
    checkIn "[-Inf, 1.000 ]" ⟨⟨f 0 0, f 0 0⟩, .ill⟩
      (fun x ok => eqD (x) (⟨⟨.ninf, (f 1 0)⟩, .dac⟩) && ok),
    checkIn "[-Infinity, 1.000 ]_trv" ⟨⟨f 0 0, f 0 0⟩, .ill⟩
      (fun x ok => eqD (x) (⟨⟨.ninf, (f 1 0)⟩, .trv⟩) && ok),
    checkIn "[-Inf, 1.000 ]_ill" ⟨⟨(f (-15) (0)), (f 27 0)⟩, .trv⟩
      (fun x ok => eqD (x) (⟨⟨(f (-15) (0)), (f 27 0)⟩, .trv⟩) && !ok),
    checkIn "[1.0E+400 ]_com" ⟨⟨f 0 0, f 0 0⟩, .ill⟩
      (fun x ok => eqD (x) (⟨⟨(f 9007199254740991 971), .pinf⟩, .dac⟩) && ok),
    checkIn "[1.0000000000000002E+6000 ]_com" ⟨⟨f 0 0, f 0 0⟩, .ill⟩
      (fun x ok => eqD (x) (⟨⟨(f 9007199254740991 971), .pinf⟩, .dac⟩) && ok),
    checkIn "[-1.0000000000000002E+6000 ]_com" ⟨⟨f 0 0, f 0 0⟩, .ill⟩
      (fun x ok => eqD (x) (⟨⟨.ninf, (f (-9007199254740991) (971))⟩, .dac⟩) && ok),
    checkIn "[10000000000000002]_com" ⟨⟨f 0 0, f 0 0⟩, .ill⟩
      (fun x ok => eqD (x) (⟨⟨(f 5000000000000001 1), (f 5000000000000001 1)⟩, .com⟩) && ok),
    checkIn "[-10000000000000002]_com" ⟨⟨f 0 0, f 0 0⟩, .ill⟩
      (fun x ok => eqD (x) (⟨⟨(f (-5000000000000001) (1)), (f (-5000000000000001) (1))⟩, .com⟩) && ok),
    checkIn "[-1.0000000000000002E+6000, 1.0000000000000001E+6000]_com" ⟨⟨f 0 0, f 0 0⟩, .ill⟩
      (fun x ok => eqD (x) (⟨⟨.ninf, .pinf⟩, .dac⟩) && ok),
    checkIn "[ -4/2, 10/5 ]_com" ⟨⟨f 0 0, f 0 0⟩, .ill⟩
      (fun x ok => eqD (x) (⟨⟨(f (-2) (0)), (f 2 0)⟩, .com⟩) && ok),
    checkIn "[ -1/10, 1/10 ]_com" ⟨⟨f 0 0, f 0 0⟩, .ill⟩
      (fun x ok => eqD (x) (⟨⟨(f (-3602879701896397) (-55)), (f (3602879701896397) (-55))⟩, .com⟩) && ok),
    checkIn "[ 1/-10, 1/10 ]_com" ⟨⟨(f (-1) (0)), (f 2 0)⟩, .trv⟩
      (fun x ok => eqD (x) (⟨⟨(f (-1) (0)), (f 2 0)⟩, .trv⟩) && !ok)].all id = true := by
  decide +kernel

example : [
    checkIn "[ 1/10, 1/+10 ]_com" ⟨⟨(f (-1) (0)), (f 2 0)⟩, .trv⟩
      (fun x ok => eqD (x) (⟨⟨(f (-1) (0)), (f 2 0)⟩, .trv⟩) && !ok),
    checkIn "[ 1/0, 1/10 ]_com" ⟨⟨(f (-1) (0)), (f 2 0)⟩, .trv⟩
      (fun x ok => eqD (x) (⟨⟨(f (-1) (0)), (f 2 0)⟩, .trv⟩) && !ok),
    checkIn "[-I  nf, 1.000 ]" ⟨⟨(f (-1) (0)), (f 2 0)⟩, .trv⟩
      (fun x ok => eqD (x) (⟨⟨(f (-1) (0)), (f 2 0)⟩, .trv⟩) && !ok),
    checkIn "[-Inf, 1.0  00 ]" ⟨⟨(f (-1) (0)), (f 2 0)⟩, .trv⟩
      (fun x ok => eqD (x) (⟨⟨(f (-1) (0)), (f 2 0)⟩, .trv⟩) && !ok),
    checkIn "[-Inf ]" ⟨⟨(f (-1) (0)), (f 12 0)⟩, .trv⟩
      (fun x ok => eqD (x) (⟨⟨(f (-1) (0)), (f 12 0)⟩, .trv⟩) && !ok),
    checkIn "[1.0,-1.0]" ⟨⟨(f (-1) (0)), (f 2 0)⟩, .trv⟩
      (fun x ok => eqD (x) (⟨⟨(f (-1) (0)), (f 2 0)⟩, .trv⟩) && !ok),
    checkIn "[-1.0,1.0" ⟨⟨(f (-1) (0)), (f 2 0)⟩, .trv⟩
      (fun x ok => eqD (x) (⟨⟨(f (-1) (0)), (f 2 0)⟩, .trv⟩) && !ok),
    checkIn "-1.0,1.0]" ⟨⟨(f (-1) (0)), (f 2 0)⟩, .trv⟩
      (fun x ok => eqD (x) (⟨⟨(f (-1) (0)), (f 2 0)⟩, .trv⟩) && !ok),
    checkIn "[1.0" ⟨⟨(f (-1) (0)), (f 2 0)⟩, .trv⟩
      (fun x ok => eqD (x) (⟨⟨(f (-1) (0)), (f 2 0)⟩, .trv⟩) && !ok),
    checkIn "-1.0]" ⟨⟨(f (-1) (0)), (f 2 0)⟩, .trv⟩
      (fun x ok => eqD (x) (⟨⟨(f (-1) (0)), (f 2 0)⟩, .trv⟩) && !ok),
    checkIn "[Inf , INF]" ⟨⟨(f (-1) (0)), (f 2 0)⟩, .trv⟩
      (fun x ok => eqD (x) (⟨⟨(f (-1) (0)), (f 2 0)⟩, .trv⟩) && !ok),
    checkIn "[ foo ]" ⟨⟨(f (-1) (0)), (f 5 0)⟩, .trv⟩
      (fun x ok => eqD (x) (⟨⟨(f (-1) (0)), (f 5 0)⟩, .trv⟩) && !ok),
    checkIn "[1.0000000000000002,1.0000000000000001]" ⟨⟨(f (-1) (0)), (f 5 0)⟩, .trv⟩
      (fun x ok => eqD (x) (⟨⟨(f (-1) (0)), (f 5 0)⟩, .trv⟩) && !ok),
    checkIn "[1.0000000000000002E+6000,1.0000000000000001E+6000]" ⟨⟨(f (-1) (0)), (f 5 0)⟩, .trv⟩
      (fun x ok => eqD (x) (⟨⟨(f (-1) (0)), (f 5 0)⟩, .trv⟩) && !ok),
    checkIn "[10000000000000001/10000000000000000,10000000000000002/10000000000000001]" ⟨⟨(f (-1) (0)), (f 5 0)⟩, .trv⟩
      (fun x ok => eqD (x) (⟨⟨(f (-1) (0)), (f 5 0)⟩, .trv⟩) && !ok),
    checkIn "[0x1.00000000000001p0,0x1.00000000000002p0]" ⟨⟨(f (-1) (0)), (f 5 0)⟩, .trv⟩
      (fun x ok => eqD (x) (⟨⟨(f 1 0), (f (4503599627370497) (-52))⟩, .com⟩) && ok),
    checkIn "[-0x1.00000000000001p0,0x1.00000000000002p0]" ⟨⟨(f (-1) (0)), (f 5 0)⟩, .trv⟩
      (fun x ok => eqD (x) (⟨⟨(f (-4503599627370497) (-52)), (f (4503599627370497) (-52))⟩, .com⟩) && ok),
    checkIn "[0x1.00000000000001,0x1.00000000000002p0]" ⟨⟨(f (-1) (0)), (f 5 0)⟩, .trv⟩
      (fun x ok => eqD (x) (⟨⟨(f (-1) (0)), (f 5 0)⟩, .trv⟩) && !ok),
    checkIn "[0x1.00000000000001p0,0x1.00000000000002]" ⟨⟨(f (-1) (0)), (f 5 0)⟩, .trv⟩
      (fun x ok => eqD (x) (⟨⟨(f (-1) (0)), (f 5 0)⟩, .trv⟩) && !ok),
    checkIn "[0x1.00000000000001,0x1.00000000000002]" ⟨⟨(f (-1) (0)), (f 5 0)⟩, .trv⟩
      (fun x ok => eqD (x) (⟨⟨(f (-1) (0)), (f 5 0)⟩, .trv⟩) && !ok)].all id = true := by
  decide +kernel

example : [
    checkIn "[0x1.00000000000001p0]" ⟨⟨(f (-1) (0)), (f 5 0)⟩, .trv⟩
      (fun x ok => eqD (x) (⟨⟨(f 1 0), (f (4503599627370497) (-52))⟩, .com⟩) && ok),
    checkIn "[-0x1.00000000000001p0]" ⟨⟨(f (-1) (0)), (f 5 0)⟩, .trv⟩
      (fun x ok => eqD (x) (⟨⟨(f (-4503599627370497) (-52)), (f (-1) (0))⟩, .com⟩) && ok),
    checkIn "[0x1.00000000000001]" ⟨⟨(f (-1) (0)), (f 5 0)⟩, .trv⟩
      (fun x ok => eqD (x) (⟨⟨(f (-1) (0)), (f 5 0)⟩, .trv⟩) && !ok),
    checkIn "[0x1.00000000000001]" ⟨⟨(f (-1) (0)), (f 5 0)⟩, .trv⟩
      (fun x ok => eqD (x) (⟨⟨(f (-1) (0)), (f 5 0)⟩, .trv⟩) && !ok),
    checkIn "[0x1.00000000000002p0,0x1.00000000000001p0]" ⟨⟨(f (-1) (0)), (f 5 0)⟩, .trv⟩
      (fun x ok => eqD (x) (⟨⟨(f (-1) (0)), (f 5 0)⟩, .trv⟩) && !ok),
    checkIn "[-0x1.00000000000001p0,-0x1.00000000000002p0]" ⟨⟨(f (-1) (0)), (f 5 0)⟩, .trv⟩
      (fun x ok => eqD (x) (⟨⟨(f (-1) (0)), (f 5 0)⟩, .trv⟩) && !ok),
    checkIn "[-0x1.00000000000001p0, 10/5]" ⟨⟨(f (-1) (0)), (f 5 0)⟩, .trv⟩
      (fun x ok => eqD (x) (⟨⟨(f (-4503599627370497) (-52)), (f 2 0)⟩, .com⟩) && ok),
    checkIn "[0x1.00000000000001p0, 2.5]" ⟨⟨(f (-1) (0)), (f 5 0)⟩, .trv⟩
      (fun x ok => eqD (x) (⟨⟨(f 1 0), (f (5) (-1))⟩, .com⟩) && ok),
    checkInB "[ Empty  ]" ⟨f 0 0, f 0 0⟩
      (fun x ok => Itv.isEmpty (x : Itv) && ok),
    checkInB "[ Empty  ]_trv" ⟨f 0 0, f 0 0⟩
      (fun x ok => Itv.isEmpty (x : Itv) && ok),
    checkInB "[ Empty  ]_ill" ⟨(f (7) (-1)), (f (5291729562160333) (-50))⟩
      (fun x ok => eqB (x) (⟨(f (7) (-1)), (f (5291729562160333) (-50))⟩) && !ok),
    checkInB "[  ]" ⟨f 0 0, f 0 0⟩
      (fun x ok => Itv.isEmpty (x : Itv) && ok),
    checkInB "[  ]_com" ⟨(f (7) (-1)), (f (5291729562160333) (-50))⟩
      (fun x ok => eqB (x) (⟨(f (7) (-1)), (f (5291729562160333) (-50))⟩) && !ok),
    checkInB "[  ]_trv" ⟨f 0 0, f 0 0⟩
      (fun x ok => Itv.isEmpty (x : Itv) && ok),
    checkInB "[,]" ⟨f 0 0, f 0 0⟩
      (fun x ok => eqB (x) (Itv.entire) && ok),
    checkInB "[,]_trv" ⟨f 0 0, f 0 0⟩
      (fun x ok => eqB (x) (Itv.entire) && ok),
    checkInB "[,]_com" ⟨(f (7) (-1)), (f (5291729562160333) (-50))⟩
      (fun x ok => eqB (x) (⟨(f (7) (-1)), (f (5291729562160333) (-50))⟩) && !ok),
    checkInB "[ entire  ]" ⟨f 0 0, f 0 0⟩
      (fun x ok => eqB (x) (Itv.entire) && ok),
    checkInB "[ ENTIRE ]_dac" ⟨f 0 0, f 0 0⟩
      (fun x ok => eqB (x) (Itv.entire) && ok),
    checkInB "[   Entire ]_com" ⟨(f (7) (-1)), (f (5291729562160333) (-50))⟩
      (fun x ok => eqB (x) (⟨(f (7) (-1)), (f (5291729562160333) (-50))⟩) && !ok)].all id = true := by
  decide +kernel

example : [
    checkInB "[ -inf , INF  ]" ⟨f 0 0, f 0 0⟩
      (fun x ok => eqB (x) (Itv.entire) && ok),
    checkInB "[ -inf, INF ]_def" ⟨f 0 0, f 0 0⟩
      (fun x ok => eqB (x) (Itv.entire) && ok),
    checkInB "[ -inf ,  INF ]_com" ⟨(f (7) (-1)), (f (5291729562160333) (-50))⟩
      (fun x ok => eqB (x) (⟨(f (7) (-1)), (f (5291729562160333) (-50))⟩) && !ok),
    checkInB "[-1.0,1]" ⟨f 0 0, f 0 0⟩
      (fun x ok => eqB (x) (⟨(f (-1) (0)), (f 1 0)⟩) && ok),
    checkInB "[  -1.0  ,  1.0  ]_com" ⟨f 0 0, f 0 0⟩
      (fun x ok => eqB (x) (⟨(f (-1) (0)), (f 1 0)⟩) && ok),
    checkInB "[  -1.0  , 1.0]_trv" ⟨f 0 0, f 0 0⟩
      (fun x ok => eqB (x) (⟨(f (-1) (0)), (f 1 0)⟩) && ok),
    checkInB "[  -1.0  , 1.0]_ill" ⟨(f (7) (-1)), (f (5291729562160333) (-50))⟩
      (fun x ok => eqB (x) (⟨(f (7) (-1)), (f (5291729562160333) (-50))⟩) && !ok),
    checkInB "[  -1.0  , 1.0]_fooo" ⟨(f (7) (-1)), (f (5291729562160333) (-50))⟩
      (fun x ok => eqB (x) (⟨(f (7) (-1)), (f (5291729562160333) (-50))⟩) && !ok),
    checkInB "[  -1.0  , 1.0]_da c" ⟨(f (7) (-1)), (f (5291729562160333) (-50))⟩
      (fun x ok => eqB (x) (⟨(f (7) (-1)), (f (5291729562160333) (-50))⟩) && !ok),
    checkInB "[-1.0,]" ⟨f 0 0, f 0 0⟩
      (fun x ok => eqB (x) (⟨(f (-1) (0)), .pinf⟩) && ok),
    checkInB "[-1.0, +inf]_def" ⟨f 0 0, f 0 0⟩
      (fun x ok => eqB (x) (⟨(f (-1) (0)), .pinf⟩) && ok),
    checkInB "[-1.0, +infinity]_def" ⟨f 0 0, f 0 0⟩
      (fun x ok => eqB (x) (⟨(f (-1) (0)), .pinf⟩) && ok),
    checkInB "[-1.0,]_com" ⟨(f (7) (-1)), (f (5291729562160333) (-50))⟩
      (fun x ok => eqB (x) (⟨(f (7) (-1)), (f (5291729562160333) (-50))⟩) && !ok),
    checkInB "[-Inf, 1.000 ]" ⟨f 0 0, f 0 0⟩
      (fun x ok => eqB (x) (⟨.ninf, (f 1 0)⟩) && ok),
    checkInB "[-Infinity, 1.000 ]_trv" ⟨f 0 0, f 0 0⟩
      (fun x ok => eqB (x) (⟨.ninf, (f 1 0)⟩) && ok),
    checkInB "[-Inf, 1.000 ]_ill" ⟨(f (-35) (0)), (f (-3152519739159347) (-52))⟩
      (fun x ok => eqB (x) (⟨(f (-35) (0)), (f (-3152519739159347) (-52))⟩) && !ok),
    checkInB "[ 0.1 ]_com" ⟨f 0 0, f 0 0⟩
      (fun x ok => eqB (x) (⟨(f (7205759403792793) (-56)), (f (3602879701896397) (-55))⟩) && ok),
    checkInB "[ 1/10 ]" ⟨f 0 0, f 0 0⟩
      (fun x ok => eqB (x) (⟨(f (7205759403792793) (-56)), (f (3602879701896397) (-55))⟩) && ok),
    checkInB "[1.0E+400 ]_com" ⟨f 0 0, f 0 0⟩
      (fun x ok => eqB (x) (⟨(f 9007199254740991 971), .pinf⟩) && ok),
    checkInB "[ -4/2, 10/5 ]_com" ⟨f 0 0, f 0 0⟩
      (fun x ok => eqB (x) (⟨(f (-2) (0)), (f 2 0)⟩) && ok)].all id = true := by
  decide +kernel

example : [
    checkInB "[ -1/10, 1/10 ]_com" ⟨f 0 0, f 0 0⟩
      (fun x ok => eqB (x) (⟨(f (-3602879701896397) (-55)), (f (3602879701896397) (-55))⟩) && ok),
    checkInB "[ 1/-10, 1/10 ]_com" ⟨(f (7) (-1)), (f (5291729562160333) (-50))⟩
      (fun x ok => eqB (x) (⟨(f (7) (-1)), (f (5291729562160333) (-50))⟩) && !ok),
    checkInB "1.0, 1.000]" ⟨(f (7) (-1)), (f (3215851608919245) (-46))⟩
      (fun x ok => eqB (x) (⟨(f (7) (-1)), (f (3215851608919245) (-46))⟩) && !ok),
    checkInB "[1.0, 1.000" ⟨(f (7) (-1)), (f (3215851608919245) (-46))⟩
      (fun x ok => eqB (x) (⟨(f (7) (-1)), (f (3215851608919245) (-46))⟩) && !ok),
    checkInB "1.000]" ⟨(f (7) (-1)), (f (3215851608919245) (-46))⟩
      (fun x ok => eqB (x) (⟨(f (7) (-1)), (f (3215851608919245) (-46))⟩) && !ok),
    checkInB "[1.0" ⟨(f (7) (-1)), (f (3215851608919245) (-46))⟩
      (fun x ok => eqB (x) (⟨(f (7) (-1)), (f (3215851608919245) (-46))⟩) && !ok),
    checkInB "[-I  nf, 1.000 ]" ⟨(f (7) (-1)), (f (3215851608919245) (-46))⟩
      (fun x ok => eqB (x) (⟨(f (7) (-1)), (f (3215851608919245) (-46))⟩) && !ok),
    checkInB "[-Inf, 1.0  00 ]" ⟨(f 35 0), (f (3215851608919245) (-46))⟩
      (fun x ok => eqB (x) (⟨(f 35 0), (f (3215851608919245) (-46))⟩) && !ok),
    checkInB "[1.0,-1.0]" ⟨(f (-1) (0)), (f 2 0)⟩
      (fun x ok => eqB (x) (⟨(f (-1) (0)), (f 2 0)⟩) && !ok),
    checkInB "[-Inf ]" ⟨(f (-1) (-1)), (f (5291729562160333) (-50))⟩
      (fun x ok => eqB (x) (⟨(f (-1) (-1)), (f (5291729562160333) (-50))⟩) && !ok),
    checkInB "[Inf , INF]" ⟨(f (7) (-1)), (f (5291729562160333) (-50))⟩
      (fun x ok => eqB (x) (⟨(f (7) (-1)), (f (5291729562160333) (-50))⟩) && !ok),
    checkInB "[ foo ]" ⟨(f (7) (-1)), (f (5291729562160333) (-50))⟩
      (fun x ok => eqB (x) (⟨(f (7) (-1)), (f (5291729562160333) (-50))⟩) && !ok),
    checkInB "[1.0000000000000002,1.0000000000000001]" ⟨(f (7) (-1)), (f (5291729562160333) (-50))⟩
      (fun x ok => eqB (x) (⟨(f (7) (-1)), (f (5291729562160333) (-50))⟩) && !ok),
    checkInB "[10000000000000001/10000000000000000,10000000000000002/10000000000000001]" ⟨(f (7) (-1)), (f (5291729562160333) (-50))⟩
      (fun x ok => eqB (x) (⟨(f (7) (-1)), (f (5291729562160333) (-50))⟩) && !ok),
    checkInB "[0x1.00000000000002p0,0x1.00000000000001p0]" ⟨(f (7) (-1)), (f (5291729562160333) (-50))⟩
      (fun x ok => eqB (x) (⟨(f (7) (-1)), (f (5291729562160333) (-50))⟩) && !ok),
    checkIn "0.0?" ⟨⟨f 0 0, f 0 0⟩, .ill⟩
      (fun x ok => eqD (x) (⟨⟨(f (-3602879701896397) (-56)), (f (3602879701896397) (-56))⟩, .com⟩) && ok),
    checkIn "0.0?u_trv" ⟨⟨f 0 0, f 0 0⟩, .ill⟩
      (fun x ok => eqD (x) (⟨⟨(f 0 0), (f (3602879701896397) (-56))⟩, .trv⟩) && ok),
    checkIn "0.0?d_dac" ⟨⟨f 0 0, f 0 0⟩, .ill⟩
      (fun x ok => eqD (x) (⟨⟨(f (-3602879701896397) (-56)), (f 0 0)⟩, .dac⟩) && ok),
    checkIn "2.5?" ⟨⟨f 0 0, f 0 0⟩, .ill⟩
      (fun x ok => eqD (x) (⟨⟨(f (5516909543528857) (-51)), (f (5742089524897383) (-51))⟩, .com⟩) && ok),
    checkIn "2.5?u" ⟨⟨f 0 0, f 0 0⟩, .ill⟩
      (fun x ok => eqD (x) (⟨⟨(f (5) (-1)), (f (5742089524897383) (-51))⟩, .com⟩) && ok)].all id = true := by
  decide +kernel

example : [
    checkIn "2.5?d_trv" ⟨⟨f 0 0, f 0 0⟩, .ill⟩
      (fun x ok => eqD (x) (⟨⟨(f (5516909543528857) (-51)), (f (5) (-1))⟩, .trv⟩) && ok),
    checkIn "0.000?5" ⟨⟨f 0 0, f 0 0⟩, .ill⟩
      (fun x ok => eqD (x) (⟨⟨(f (-5764607523034235) (-60)), (f (5764607523034235) (-60))⟩, .com⟩) && ok),
    checkIn "0.000?5u_def" ⟨⟨f 0 0, f 0 0⟩, .ill⟩
      (fun x ok => eqD (x) (⟨⟨(f 0 0), (f (5764607523034235) (-60))⟩, .defd⟩) && ok),
    checkIn "0.000?5d" ⟨⟨f 0 0, f 0 0⟩, .ill⟩
      (fun x ok => eqD (x) (⟨⟨(f (-5764607523034235) (-60)), (f 0 0)⟩, .com⟩) && ok),
    checkIn "2.500?5" ⟨⟨f 0 0, f 0 0⟩, .ill⟩
      (fun x ok => eqD (x) (⟨⟨(f (5618240535144693) (-51)), (f (5640758533281547) (-51))⟩, .com⟩) && ok),
    checkIn "2.500?5u" ⟨⟨f 0 0, f 0 0⟩, .ill⟩
      (fun x ok => eqD (x) (⟨⟨(f (5) (-1)), (f (5640758533281547) (-51))⟩, .com⟩) && ok),
    checkIn "2.500?5d" ⟨⟨f 0 0, f 0 0⟩, .ill⟩
      (fun x ok => eqD (x) (⟨⟨(f (5618240535144693) (-51)), (f (5) (-1))⟩, .com⟩) && ok),
    checkIn "0.0??_dac" ⟨⟨f 0 0, f 0 0⟩, .ill⟩
      (fun x ok => eqD (x) (⟨⟨.ninf, .pinf⟩, .dac⟩) && ok),
    checkIn "0.0??u_trv" ⟨⟨f 0 0, f 0 0⟩, .ill⟩
      (fun x ok => eqD (x) (⟨⟨(f 0 0), .pinf⟩, .trv⟩) && ok),
    checkIn "0.0??d" ⟨⟨f 0 0, f 0 0⟩, .ill⟩
      (fun x ok => eqD (x) (⟨⟨.ninf, (f 0 0)⟩, .dac⟩) && ok),
    checkIn "5?" ⟨⟨f 0 0, f 0 0⟩, .ill⟩
      (fun x ok => eqD (x) (⟨⟨(f (9) (-1)), (f (11) (-1))⟩, .com⟩) && ok),
    checkIn "5?d" ⟨⟨f 0 0, f 0 0⟩, .ill⟩
      (fun x ok => eqD (x) (⟨⟨(f (9) (-1)), (f 5 0)⟩, .com⟩) && ok),
    checkIn "5?u" ⟨⟨f 0 0, f 0 0⟩, .ill⟩
      (fun x ok => eqD (x) (⟨⟨(f 5 0), (f (11) (-1))⟩, .com⟩) && ok),
    checkIn "-5?" ⟨⟨f 0 0, f 0 0⟩, .ill⟩
      (fun x ok => eqD (x) (⟨⟨(f (-11) (-1)), (f (-9) (-1))⟩, .com⟩) && ok),
    checkIn "-5?d" ⟨⟨f 0 0, f 0 0⟩, .ill⟩
      (fun x ok => eqD (x) (⟨⟨(f (-11) (-1)), (f (-5) (0))⟩, .com⟩) && ok),
    checkIn "-5?u" ⟨⟨f 0 0, f 0 0⟩, .ill⟩
      (fun x ok => eqD (x) (⟨⟨(f (-5) (0)), (f (-9) (-1))⟩, .com⟩) && ok),
    checkIn "2.5??" ⟨⟨f 0 0, f 0 0⟩, .ill⟩
      (fun x ok => eqD (x) (⟨⟨.ninf, .pinf⟩, .dac⟩) && ok),
    checkIn "2.5??u_def" ⟨⟨f 0 0, f 0 0⟩, .ill⟩
      (fun x ok => eqD (x) (⟨⟨(f (5) (-1)), .pinf⟩, .defd⟩) && ok),
    checkIn "2.5??d_dac" ⟨⟨f 0 0, f 0 0⟩, .ill⟩
      (fun x ok => eqD (x) (⟨⟨.ninf, (f (5) (-1))⟩, .dac⟩) && ok),
    checkIn "2.500?5e+27" ⟨⟨f 0 0, f 0 0⟩, .ill⟩
      (fun x ok => eqD (x) (⟨⟨(f 4538378561846911 39), (f 4556568455882371 39)⟩, .com⟩) && ok)].all id = true := by
  decide +kernel

example : [
    checkIn "2.500?5ue4_def" ⟨⟨f 0 0, f 0 0⟩, .ill⟩
      (fun x ok => eqD (x) (⟨⟨(f 25000 0), (f 25050 0)⟩, .defd⟩) && ok),
    checkIn "2.500?5de-5" ⟨⟨f 0 0, f 0 0⟩, .ill⟩
      (fun x ok => eqD (x) (⟨⟨(f (7363940234224853) (-68)), (f (7378697629483821) (-68))⟩, .com⟩) && ok),
    checkIn "10?3_com" ⟨⟨f 0 0, f 0 0⟩, .ill⟩
      (fun x ok => eqD (x) (⟨⟨(f 7 0), (f 13 0)⟩, .com⟩) && ok),
    checkIn "10?3e380_com" ⟨⟨f 0 0, f 0 0⟩, .ill⟩
      (fun x ok => eqD (x) (⟨⟨(f 9007199254740991 971), .pinf⟩, .dac⟩) && ok),
    checkIn "5" ⟨⟨(f (-3715469692580659) (-50)), (f (5635129033747333) (-49))⟩, .com⟩
      (fun x ok => eqD (x) (⟨⟨(f (-3715469692580659) (-50)), (f (5635129033747333) (-49))⟩, .com⟩) && !ok),
    checkIn "0.0??_com" ⟨⟨(f (-4165829655317709) (-50)), (f (5764607523034235) (-59))⟩, .defd⟩
      (fun x ok => eqD (x) (⟨⟨(f (-4165829655317709) (-50)), (f (5764607523034235) (-59))⟩, .defd⟩) && !ok),
    checkIn "0.0??u_ill" ⟨⟨(f (4165829655317709) (-50)), (f (6980579422424269) (-49))⟩, .trv⟩
      (fun x ok => eqD (x) (⟨⟨(f (4165829655317709) (-50)), (f (6980579422424269) (-49))⟩, .trv⟩) && !ok),
    checkIn "0.0??d_com" ⟨⟨(f (-3715469692580659) (-50)), (f (5635129033747333) (-49))⟩, .com⟩
      (fun x ok => eqD (x) (⟨⟨(f (-3715469692580659) (-50)), (f (5635129033747333) (-49))⟩, .com⟩) && !ok),
    checkInB "0.0?" ⟨f 0 0, f 0 0⟩
      (fun x ok => eqB (x) (⟨(f (-3602879701896397) (-56)), (f (3602879701896397) (-56))⟩) && ok),
    checkInB "0.0?u_trv" ⟨f 0 0, f 0 0⟩
      (fun x ok => eqB (x) (⟨(f 0 0), (f (3602879701896397) (-56))⟩) && ok),
    checkInB "0.0?d_dac" ⟨f 0 0, f 0 0⟩
      (fun x ok => eqB (x) (⟨(f (-3602879701896397) (-56)), (f 0 0)⟩) && ok),
    checkInB "2.5?" ⟨f 0 0, f 0 0⟩
      (fun x ok => eqB (x) (⟨(f (5516909543528857) (-51)), (f (5742089524897383) (-51))⟩) && ok),
    checkInB "2.5?u" ⟨f 0 0, f 0 0⟩
      (fun x ok => eqB (x) (⟨(f (5) (-1)), (f (5742089524897383) (-51))⟩) && ok),
    checkInB "2.5?d_trv" ⟨f 0 0, f 0 0⟩
      (fun x ok => eqB (x) (⟨(f (5516909543528857) (-51)), (f (5) (-1))⟩) && ok),
    checkInB "0.000?5" ⟨f 0 0, f 0 0⟩
      (fun x ok => eqB (x) (⟨(f (-5764607523034235) (-60)), (f (5764607523034235) (-60))⟩) && ok),
    checkInB "0.000?5u_def" ⟨f 0 0, f 0 0⟩
      (fun x ok => eqB (x) (⟨(f 0 0), (f (5764607523034235) (-60))⟩) && ok),
    checkInB "0.000?5d" ⟨f 0 0, f 0 0⟩
      (fun x ok => eqB (x) (⟨(f (-5764607523034235) (-60)), (f 0 0)⟩) && ok),
    checkInB "2.500?5" ⟨f 0 0, f 0 0⟩
      (fun x ok => eqB (x) (⟨(f (5618240535144693) (-51)), (f (5640758533281547) (-51))⟩) && ok),
    checkInB "2.500?5u" ⟨f 0 0, f 0 0⟩
      (fun x ok => eqB (x) (⟨(f (5) (-1)), (f (5640758533281547) (-51))⟩) && ok),
    checkInB "2.500?5d" ⟨f 0 0, f 0 0⟩
      (fun x ok => eqB (x) (⟨(f (5618240535144693) (-51)), (f (5) (-1))⟩) && ok)].all id = true := by
  decide +kernel

example : [
    checkInB "0.0??_dac" ⟨f 0 0, f 0 0⟩
      (fun x ok => eqB (x) (⟨.ninf, .pinf⟩) && ok),
    checkInB "0.0??u_trv" ⟨f 0 0, f 0 0⟩
      (fun x ok => eqB (x) (⟨(f 0 0), .pinf⟩) && ok),
    checkInB "0.0??d" ⟨f 0 0, f 0 0⟩
      (fun x ok => eqB (x) (⟨.ninf, (f 0 0)⟩) && ok),
    checkInB "2.5??" ⟨f 0 0, f 0 0⟩
      (fun x ok => eqB (x) (⟨.ninf, .pinf⟩) && ok),
    checkInB "2.5??u_def" ⟨f 0 0, f 0 0⟩
      (fun x ok => eqB (x) (⟨(f (5) (-1)), .pinf⟩) && ok),
    checkInB "2.5??d_dac" ⟨f 0 0, f 0 0⟩
      (fun x ok => eqB (x) (⟨.ninf, (f (5) (-1))⟩) && ok),
    checkInB "2.500?5e+27" ⟨f 0 0, f 0 0⟩
      (fun x ok => eqB (x) (⟨(f 4538378561846911 39), (f 4556568455882371 39)⟩) && ok),
    checkInB "2.500?5ue4_def" ⟨f 0 0, f 0 0⟩
      (fun x ok => eqB (x) (⟨(f 25000 0), (f 25050 0)⟩) && ok),
    checkInB "2.500?5de-5" ⟨f 0 0, f 0 0⟩
      (fun x ok => eqB (x) (⟨(f (7363940234224853) (-68)), (f (7378697629483821) (-68))⟩) && ok),
    checkInB "10?3_com" ⟨f 0 0, f 0 0⟩
      (fun x ok => eqB (x) (⟨(f 7 0), (f 13 0)⟩) && ok),
    checkInB "10?3e380_com" ⟨f 0 0, f 0 0⟩
      (fun x ok => eqB (x) (⟨(f 9007199254740991 971), .pinf⟩) && ok),
    checkInB "1.0000000000000001?1" ⟨f 0 0, f 0 0⟩
      (fun x ok => eqB (x) (⟨(f 1 0), (f (4503599627370497) (-52))⟩) && ok),
    checkInB "12" ⟨(f 2 0), (f 3 0)⟩
      (fun x ok => eqB (x) (⟨(f 2 0), (f 3 0)⟩) && !ok),
    checkInB "0.0??_com" ⟨(f 2 0), (f 3 0)⟩
      (fun x ok => eqB (x) (⟨(f 2 0), (f 3 0)⟩) && !ok),
    checkInB "0.0??u_ill" ⟨(f (5) (-1)), (f (7656119366529843) (-51))⟩
      (fun x ok => eqB (x) (⟨(f (5) (-1)), (f (7656119366529843) (-51))⟩) && !ok),
    checkInB "0.0??d_com" ⟨(f (-2) (0)), (f (-1) (0))⟩
      (fun x ok => eqB (x) (⟨(f (-2) (0)), (f (-1) (0))⟩) && !ok)].all id = true := by
  decide +kernel

end P1788.Conform
