{
 "claims": [
  {
   "property": "C01",
   "status": "proved",
   "theorems": [
    "RustDct.C01_made",
    "RustDct.C01_planned"
   ],
   "note": "every instance of the public constructors and every planned instance, after every history"
  },
  {
   "property": "C02",
   "status": "proved",
   "theorems": [
    "RustDct.C02_made",
    "RustDct.C02_planned"
   ],
   "note": "every instance of the public constructors and every planned instance, after every history"
  },
  {
   "property": "C03",
   "status": "proved",
   "theorems": [
    "RustDct.C03_made",
    "RustDct.C03_planned"
   ],
   "note": "every instance of the public constructors and every planned instance, after every history"
  },
  {
   "property": "C04",
   "status": "proved",
   "theorems": [
    "RustDct.C04_made",
    "RustDct.C04_planned"
   ],
   "note": "every instance of the public constructors and every planned instance, after every history"
  },
  {
   "property": "C05",
   "status": "proved",
   "theorems": [
    "RustDct.C05_made",
    "RustDct.C05_planned"
   ],
   "note": "every instance of the public constructors and every planned instance, after every history"
  },
  {
   "property": "C06",
   "status": "proved",
   "theorems": [
    "RustDct.C06_made",
    "RustDct.C06_planned"
   ],
   "note": "every instance of the public constructors and every planned instance, after every history"
  },
  {
   "property": "C07",
   "status": "proved",
   "theorems": [
    "RustDct.C07_made",
    "RustDct.C07_planned"
   ],
   "note": "every instance of the public constructors and every planned instance, after every history"
  },
  {
   "property": "C08",
   "status": "proved",
   "theorems": [
    "RustDct.C08_made",
    "RustDct.C08_planned"
   ],
   "note": "every instance of the public constructors and every planned instance, after every history"
  },
  {
   "property": "C09",
   "status": "proved",
   "theorems": [
    "RustDct.C09_made",
    "RustDct.C09_planned"
   ],
   "note": "every instance of the public constructors and every planned instance, after every history"
  },
  {
   "property": "C10",
   "status": "proved",
   "theorems": [
    "RustDct.C10_made",
    "RustDct.C10_planned"
   ],
   "note": "every instance of the public constructors and every planned instance, after every history"
  },
  {
   "property": "C11",
   "status": "proved",
   "theorems": [
    "RustDct.C11_made",
    "RustDct.C11_planned"
   ],
   "note": "every instance of the public constructors and every planned instance, after every history"
  },
  {
   "property": "C12",
   "status": "proved",
   "theorems": [
    "RustDct.C12_made",
    "RustDct.C12_planned"
   ],
   "note": "every instance of the public constructors and every planned instance, after every history"
  },
  {
   "property": "C13",
   "status": "proved",
   "theorems": [
    "RustDct.C13_made",
    "RustDct.C13_planned"
   ],
   "note": "every instance of the public constructors and every planned instance, after every history"
  },
  {
   "property": "C14",
   "status": "proved",
   "theorems": [
    "RustDct.C14_made",
    "RustDct.C14_planned"
   ],
   "note": "every instance of the public constructors and every planned instance, after every history"
  },
  {
   "property": "C15",
   "status": "proved",
   "theorems": [
    "RustDct.C15_made",
    "RustDct.C15_planned"
   ],
   "note": "every instance of the public constructors and every planned instance, after every history"
  },
  {
   "property": "C16",
   "status": "proved",
   "theorems": [
    "RustDct.C16_made",
    "RustDct.C16_planned"
   ],
   "note": "every instance of the public constructors and every planned instance, after every history"
  },
  {
   "property": "C17",
   "status": "proved",
   "theorems": [
    "RustDct.C17_made",
    "RustDct.C17_planned"
   ],
   "note": "over the reals; all made and all planned instances"
  },
  {
   "property": "C18",
   "status": "proved",
   "theorems": [
    "RustDct.C18_made",
    "RustDct.C18_planned"
   ],
   "note": "over the reals; all made and all planned instances"
  },
  {
   "property": "C19",
   "status": "proved",
   "theorems": [
    "RustDct.C19_made",
    "RustDct.C19_planned"
   ],
   "note": "over the reals; all made and all planned instances"
  },
  {
   "property": "C20",
   "status": "proved",
   "theorems": [
    "RustDct.C20_made",
    "RustDct.C20_planned"
   ],
   "note": "over the reals; all made and all planned instances"
  },
  {
   "property": "C21",
   "status": "proved",
   "theorems": [
    "RustDct.C21_made",
    "RustDct.C21_planned"
   ],
   "note": "planned instances use effectiveWindow, see C36"
  },
  {
   "property": "C22",
   "status": "proved",
   "theorems": [
    "RustDct.C22_made",
    "RustDct.C22_planned"
   ],
   "note": "planned instances use effectiveWindow, see C36"
  },
  {
   "property": "C23",
   "status": "proved",
   "theorems": [
    "RustDct.C23_made",
    "RustDct.C23_planned"
   ],
   "note": "about the client program lapped (Verif/Client.lean), any number of blocks"
  },
  {
   "property": "C24",
   "status": "proved",
   "theorems": [
    "RustDct.C24_windows",
    "RustDct.C24_values"
   ],
   "note": ""
  },
  {
   "property": "C25",
   "status": "proved",
   "theorems": [
    "RustDct.C25_made",
    "RustDct.C25_planned"
   ],
   "note": "planned: the planner must not have been asked for another window for this length (C36)"
  },
  {
   "property": "C26",
   "status": "proved",
   "theorems": [
    "RustDct.C26_made",
    "RustDct.C26_planned",
    "RustDct.C26_mdct_made",
    "RustDct.C26_mdct_planned"
   ],
   "note": "every element type; degenerate lengths excluded, see DESIGN.md findings"
  },
  {
   "property": "C27",
   "status": "proved",
   "theorems": [
    "RustDct.C27_made",
    "RustDct.C27_planned",
    "RustDct.C27_mdct_made",
    "RustDct.C27_mdct_planned"
   ],
   "note": "every element type"
  },
  {
   "property": "C28",
   "status": "partial",
   "theorems": [
    "RustDct.C28_made_partial",
    "RustDct.C28_planned_partial",
    "RustDct.C28_mdct_made",
    "RustDct.C28_mdct_planned",
    "RustDct.C28_false",
    "RustDct.planned_dst2_eager",
    "RustDct.planned_dst3_eager"
   ],
   "note": "The full claim is false of the code (C28_false): DST2/DST3 of split radix instances negate/reverse the buffer before the size check. Proved for every other method; the planned instances for which it fails are characterised."
  },
  {
   "property": "C29",
   "status": "proved",
   "theorems": [
    "RustDct.C29_made",
    "RustDct.C29_planned",
    "RustDct.C29_mdct_made",
    "RustDct.C29_mdct_planned"
   ],
   "note": "every element type"
  },
  {
   "property": "C30",
   "status": "partial",
   "theorems": [
    "RustDct.C30_made_partial",
    "RustDct.C30_planned_partial",
    "RustDct.C30_mdct_made",
    "RustDct.C30_mdct_planned",
    "RustDct.C30_planned_exact",
    "RustDct.C30_false"
   ],
   "note": "The full claim is false of the code (C30_false): DST1/DST6/DST7 instances converting to an FFT read stale scratch. Proved for everything else; C30_planned_exact says for exactly which planned instances it holds."
  },
  {
   "property": "C31",
   "status": "partial",
   "theorems": [
    "RustDct.C31_made_partial",
    "RustDct.C31_planned_partial",
    "RustDct.C31_false"
   ],
   "note": "False exactly because C30 is (C31_false); proved for sequences of all other transforms"
  },
  {
   "property": "C32",
   "status": "proved",
   "theorems": [
    "RustDct.C32_planned",
    "RustDct.C32_mdct_planned",
    "RustDct.C32_naive"
   ],
   "note": ""
  },
  {
   "property": "C33",
   "status": "proved",
   "theorems": [
    "RustDct.C33_domain",
    "RustDct.C33_mdct_domain"
   ],
   "note": "exact domain after every history"
  },
  {
   "property": "C34",
   "status": "proved",
   "theorems": [
    "RustDct.C34_history_independent"
   ],
   "note": ""
  },
  {
   "property": "C35",
   "status": "proved",
   "theorems": [
    "RustDct.C35_cached",
    "RustDct.C35_shared",
    "RustDct.C35_mdct"
   ],
   "note": ""
  },
  {
   "property": "C36",
   "status": "partial",
   "theorems": [
    "RustDct.C36_partial",
    "RustDct.C36_false",
    "RustDct.PlannedMdct.made_window"
   ],
   "note": "The full claim is false of the code (C36_false): the cache ignores the window. Proved for histories without another window for the length; PlannedMdct.made_window, C21_planned and C22_planned say exactly which window is applied."
  },
  {
   "property": "C37",
   "status": "proved",
   "theorems": [
    "RustDct.C37_fft",
    "RustDct.C37_composed",
    "RustDct.C37_mdct",
    "RustDct.C37_naive"
   ],
   "note": "every constructor of the crate; every element type"
  },
  {
   "property": "C38",
   "status": "proved",
   "theorems": [
    "RustDct.C38_splitRadix",
    "RustDct.C38_type4",
    "RustDct.C38_mdct",
    "RustDct.C38_splitRadix_safe",
    "RustDct.C38_type4_safe",
    "RustDct.C38_mdct_safe"
   ],
   "note": "values over the reals, absence of panics for every element type; inner instances are arbitrary implementations of the traits"
  },
  {
   "property": "C39",
   "status": "proved",
   "theorems": [
    "RustDct.C39_made",
    "RustDct.C39_planned",
    "RustDct.C39_zero"
   ],
   "note": "over the reals; all made and all planned instances"
  },
  {
   "property": "C40",
   "status": "proved",
   "theorems": [
    "RustDct.C40_zeroed",
    "RustDct.C40_wrong_length",
    "RustDct.C40_any"
   ],
   "note": ""
  },
  {
   "property": "C41",
   "status": "proved",
   "theorems": [
    "RustDct.C41_made",
    "RustDct.C41_planned"
   ],
   "note": "over the reals; all made and all planned instances"
  },
  {
   "property": "C42",
   "status": "proved",
   "theorems": [
    "RustDct.C42_shared",
    "RustDct.C42_independent",
    "RustDct.C42_planned"
   ],
   "note": "interleaving model in Verif/Threads.lean; that calls only read the shared instance is the Rust type system's guarantee, built into the model"
  },
  {
   "property": "C43",
   "status": "proved",
   "theorems": [
    "RustDct.C43_cost"
   ],
   "note": ""
  },
  {
   "property": "C44",
   "status": "proved",
   "theorems": [
    "RustDct.C44_made",
    "RustDct.C44_planned",
    "RustDct.C44_weighted"
   ],
   "note": "over the reals; C44_weighted is Parseval's identity for all sixteen transforms"
  },
  {
   "property": "C45",
   "status": "proved",
   "theorems": [
    "RustDct.C45_read",
    "RustDct.C45_write",
    "RustDct.C45_none",
    "RustDct.C45_overwrite"
   ],
   "note": ""
  },
  {
   "property": "C46",
   "status": "proved",
   "theorems": [
    "RustDct.dct3_length_zero_panics",
    "RustDct.dct1_fft_zero_panics",
    "RustDct.type4_empty_panics",
    "RustDct.dct4_length_zero",
    "RustDct.mdct_length_zero",
    "RustDct.C46_fft_on",
    "RustDct.C46_naive_on",
    "RustDct.C46_type4_on"
   ],
   "note": "C46_*_on: with the usize arithmetic of debug and release builds"
  },
  {
   "property": "C47",
   "status": "proved",
   "theorems": [
    "RustDct.C47_half",
    "RustDct.C47_quarter",
    "RustDct.splitRadix_scratch_finding"
   ],
   "note": ""
  },
  {
   "property": "C48",
   "status": "proved",
   "theorems": [
    "RustDct.C30_planned_exact",
    "RustDct.planned_dst1_exact",
    "RustDct.planned_dst6_exact",
    "RustDct.planned_dst7_exact"
   ],
   "note": "over the reals"
  },
  {
   "property": "C49",
   "status": "proved",
   "theorems": [
    "RustDct.PlannedMdct.made_window",
    "RustDct.effectiveWindow_cases",
    "RustDct.C21_planned",
    "RustDct.C22_planned"
   ],
   "note": ""
  },
  {
   "property": "C50",
   "status": "proved",
   "theorems": [
    "RustDct.C50_dst2",
    "RustDct.C50_dst3",
    "RustDct.planned_dst2_eager",
    "RustDct.planned_dst3_eager",
    "RustDct.C28_planned_partial",
    "RustDct.C28_mdct_planned"
   ],
   "note": "C28_planned_partial covers every other planned method"
  },
  {
   "property": "C51",
   "status": "proved",
   "theorems": [
    "RustDct.C51_planned",
    "RustDct.C51_planned_zeroed",
    "RustDct.C51_silence"
   ],
   "note": "standard model of rounding (structure Rounding; met by Flx 24, Flx 53 and exact arithmetic); hypothesis on the accuracy of the FFT (PlanFftAccurate; met by sumFft)"
  },
  {
   "property": "C52",
   "status": "proved",
   "theorems": [
    "RustDct.C52_planned",
    "RustDct.C52_linear",
    "RustDct.C52_f32",
    "RustDct.C52_f64"
   ],
   "note": "no hypothesis on the accuracy of the FFT"
  },
  {
   "property": "C53",
   "status": "proved",
   "theorems": [
    "RustDct.C53_planned"
   ],
   "note": "same hypotheses as C51"
  },
  {
   "property": "C54",
   "status": "proved",
   "theorems": [
    "RustDct.C54_planned"
   ],
   "note": "hypotheses as C51; WindowNear relates the window passed to the planner to the window meant"
  },
  {
   "property": "C55",
   "status": "proved",
   "theorems": [
    "RustDct.C55_planned"
   ],
   "note": "as C54"
  },
  {
   "property": "C56",
   "status": "proved",
   "theorems": [
    "RustDct.C56_windows"
   ],
   "note": "in the rounding model"
  },
  {
   "property": "C57",
   "status": "proved",
   "theorems": [
    "RustDct.C57_planned",
    "RustDct.C57_builtin"
   ],
   "note": "as C54; the chain is Verif/Client.lean's lapped"
  },
  {
   "property": "C58",
   "status": "proved",
   "theorems": [
    "RustDct.C58_fits",
    "RustDct.C58_wraps",
    "RustDct.C58_debug",
    "RustDct.C58_release",
    "RustDct.fits32",
    "RustDct.fits64",
    "RustDct.mdctNaive_word_finding"
   ],
   "note": "other methods: C68; constructors and planner: C66"
  },
  {
   "property": "C59",
   "status": "proved",
   "theorems": [
    "RustDct.C59_type23",
    "RustDct.C59_type4",
    "RustDct.C59_mdct",
    "RustDct.C59_dct1",
    "RustDct.C59_dst1",
    "RustDct.C59_dct5",
    "RustDct.C59_dst5",
    "RustDct.C59_dct67",
    "RustDct.C59_dst67",
    "RustDct.C59_dct8",
    "RustDct.C59_dst8",
    "RustDct.C59_planned",
    "RustDct.C59_release",
    "RustDct.C59_release_butterflies",
    "RustDct.C59_guard_needed",
    "RustDct.C59_calls",
    "RustDct.C59_changing"
   ],
   "note": "inner instances are arbitrary functions that keep slice lengths and are free of undefined behaviour (what Rust guarantees of safe code); instances that change from call to call are covered by C59_changing (split radix calls an inner method twice; nothing else does, and len() of inner instances is read in the constructor)"
  },
  {
   "property": "C60",
   "status": "proved",
   "theorems": [
    "RustDct.C60_planned",
    "RustDct.C60_planned_zeroed",
    "RustDct.C60_dyadic",
    "RustDct.C60_f32",
    "RustDct.C60_f64",
    "RustDct.C60_overflow"
   ],
   "note": "structure Ieee (met by Fp.ieee f for binary formats, f32 and f64 among them); hypothesis PlanFftRange on the FFT (met by sumFft), not needed for powers of two (C60_dyadic)"
  },
  {
   "property": "C61",
   "status": "proved",
   "theorems": [
    "RustDct.C61_mdct",
    "RustDct.C61_imdct",
    "RustDct.C61_windows",
    "RustDct.C61_lapped",
    "RustDct.C61_builtin",
    "RustDct.C61_dyadic",
    "RustDct.C61_f32",
    "RustDct.C61_f64"
   ],
   "note": "as C60; WindowNear relates the window passed to the planner to the window meant, whose entries are at most 1; the chain is Verif/Client.lean's lapped"
  },
  {
   "property": "C62",
   "status": "proved",
   "theorems": [
    "RustDct.C62_planned",
    "RustDct.C62_mdct",
    "RustDct.C62_accepts",
    "RustDct.C62_linear",
    "RustDct.C62_dyadic"
   ],
   "note": "specification Verif/Scratch.lean; hypotheses PlanFftShape or PlanFftSane on the FFT planner"
  },
  {
   "property": "C63",
   "status": "proved",
   "theorems": [
    "RustDct.C63_made",
    "RustDct.C63_planned",
    "RustDct.C63_default",
    "RustDct.C63_mdct_made",
    "RustDct.C63_mdct_planned",
    "RustDct.C63_neg_flx",
    "RustDct.C63_scale_flx"
   ],
   "note": "hypothesis FftCommutes on the FFT used inside, if any (met by sumFft for every symmetry)"
  },
  {
   "property": "C64",
   "status": "proved",
   "theorems": [
    "RustDct.C64_planned",
    "RustDct.C64_scratch",
    "RustDct.C64_mdct"
   ],
   "note": "specification Verif/Formula.lean; hypotheses FftEvaluates and FftLinear on the FFT used inside, if any (met by sumFft); for the leaky cases of C30 the claim is about zeroed scratch"
  },
  {
   "property": "C65",
   "status": "proved",
   "theorems": [
    "RustDct.C65_planned",
    "RustDct.C65_exists",
    "RustDct.C65_none"
   ],
   "note": "Kind.fftLen states the length"
  },
  {
   "property": "C66",
   "status": "proved",
   "theorems": [
    "RustDct.C66_planned",
    "RustDct.C66_mdct",
    "RustDct.C66_returns",
    "RustDct.C66_mdct_returns",
    "RustDct.C66_mdct_history",
    "RustDct.C66_mdct_history_only",
    "RustDct.C66_release_length",
    "RustDct.C66_right",
    "RustDct.C66_wrong",
    "RustDct.C66_constructors",
    "RustDct.C66_constructors_wrong",
    "RustDct.C66_finding"
   ],
   "note": "model Verif/Model/WordPlan.lean; hypotheses Target.Realistic (met by 64-bit machines: release64, debug64) and, for release builds, that the FFT's buffer and scratch can be allocated; methods: C68"
  },
  {
   "property": "C67",
   "status": "proved",
   "theorems": [
    "RustDct.C67_constructed",
    "RustDct.C67_roundTrip",
    "RustDct.C67_contract",
    "RustDct.C67_constructed_contract",
    "RustDct.C67_planned_contract",
    "RustDct.C67_splitRadix",
    "RustDct.C67_type4",
    "RustDct.C67_mdct",
    "RustDct.C67_mdct_constructed"
   ],
   "note": "bounds and the contract AccurateAs in Verif/RoundingMade.lean; hypothesis FftAccurate on the FFTs used inside, if any; the scratch-reading kinds of C30 are covered on zeroed scratch; rounding model without overflow and underflow as for C51"
  },
  {
   "property": "C68",
   "status": "proved",
   "theorems": [
    "RustDct.C68_planned",
    "RustDct.C68_returns",
    "RustDct.C68_mdct",
    "RustDct.C68_mdct_returns",
    "RustDct.C68_made",
    "RustDct.C68_mdct_made",
    "RustDct.C68_dst1_zero_fft"
   ],
   "note": "model Verif/Model/WordProcess.lean, Verif/Model/WordPlan.lean; hypotheses Target.Realistic (64-bit machines: release64, debug64), FftSane and Usable of the FFTs"
  },
  {
   "property": "C69",
   "status": "proved",
   "theorems": [
    "RustDct.C69_planned",
    "RustDct.C69_noticed",
    "RustDct.C69_type4",
    "RustDct.C69_mdct",
    "RustDct.C69_imdct",
    "RustDct.C69_fp"
   ],
   "note": "specification Verif/NonFinite.lean; hypothesis FftFormulas on the FFT used inside, if any (met by sumFft)"
  },
  {
   "property": "C70",
   "status": "proved",
   "theorems": [
    "RustDct.C70_planned",
    "RustDct.C70_planned_zeroed",
    "RustDct.C70_dyadic",
    "RustDct.C70_mdct",
    "RustDct.C70_imdct",
    "RustDct.C70_lapped"
   ],
   "note": "specification Verif/Overflow.lean, formats Verif/Range/Format.lean; hypothesis PlanFftInEveryRange on the FFT (met by sumFft), PlanFftShape only for powers of two"
  },
  {
   "property": "C71",
   "status": "proved",
   "theorems": [
    "RustDct.C71_naive",
    "RustDct.C71_viaDct4",
    "RustDct.C71_planned",
    "RustDct.C71_remembered",
    "RustDct.C71_history"
   ],
   "note": "model Verif/Model/WindowEffects.lean, histories Verif/WindowHistory.lean; hypothesis PlanFftShape on the FFT planner"
  },
  {
   "property": "C72",
   "status": "proved",
   "theorems": [
    "RustDct.C72_made",
    "RustDct.C72_planned",
    "RustDct.C72_default",
    "RustDct.C72_mdct_made",
    "RustDct.C72_mdct_planned",
    "RustDct.C72_zero",
    "RustDct.C72_neg",
    "RustDct.C72_sign_lost"
   ],
   "note": "specification Verif/SignOfZero.lean, IEEE formats Verif/Range/Format.lean; hypothesis FftRel on the FFT used inside, if any (met by sumFft for every such relation)"
  },
  {
   "property": "C73",
   "status": "proved",
   "theorems": [
    "RustDct.C73_constructed",
    "RustDct.C73_contract",
    "RustDct.C73_constructed_contract",
    "RustDct.C73_planned_contract",
    "RustDct.C73_splitRadix",
    "RustDct.C73_type4",
    "RustDct.C73_mdct",
    "RustDct.C73_mdct_constructed"
   ],
   "note": "gains and the contract FiniteAs in Verif/RangeMade.lean; structure Ieee as in C60; hypothesis FftOfGain on the FFTs used inside, if any (met by sumFft with c = 3); the scratch-reading kinds of C30 are covered on zeroed scratch"
  },
  {
   "property": "C74",
   "status": "proved",
   "theorems": [
    "RustDct.C74_formulas",
    "RustDct.C74_mdct_formulas",
    "RustDct.C74_nonfinite",
    "RustDct.C74_noticed",
    "RustDct.C74_type4",
    "RustDct.C74_mdct_nonfinite",
    "RustDct.C74_imdct_nonfinite",
    "RustDct.C74_accurate",
    "RustDct.C74_mdct_accurate"
   ],
   "note": "as C64, C69 and C70 for instances made by the constructors (Method, MadeMdct); contracts of the FFTs inside, if any: FftLinearFormulas, FftFormulas, FftOfGainInEveryRange (met by sumFft); the scratch-reading kinds of C30 are covered on zeroed scratch in formulas and accuracy"
  },
  {
   "property": "C75",
   "status": "proved",
   "theorems": [
    "RustDct.C75_same",
    "RustDct.C75_same_mdct",
    "RustDct.C75_exists",
    "RustDct.C75_naive",
    "RustDct.C75_convert",
    "RustDct.C75_butterflies",
    "RustDct.C75_split_radix",
    "RustDct.C75_type4_even",
    "RustDct.C75_mdct_naive",
    "RustDct.C75_mdct_via_dct4",
    "RustDct.C75_planned",
    "RustDct.C75_planned_nlogn",
    "RustDct.C75_planned_pow2",
    "RustDct.C75_planned_quadratic",
    "RustDct.C75_planned_mdct",
    "RustDct.C75_planned_mdct_nlogn"
   ],
   "note": "steps counted by Verif/Model/Counted.lean, counting versions of instances in Verif/Counting.lean; the cost of an FFT call is a parameter; hypothesis PlanFftSane on the FFT planner"
  },
  {
   "property": "C76",
   "status": "proved",
   "theorems": [
    "RustDct.C76_butterfly2",
    "RustDct.C76_butterfly3",
    "RustDct.C76_butterfly4",
    "RustDct.C76_butterfly8",
    "RustDct.C76_butterfly16",
    "RustDct.C76_real"
   ],
   "note": "specification InPlace in Verif/Props/InPlace.lean; undefined behaviour is the error .ub of the unchecked accesses of the model"
  },
  {
   "property": "C77",
   "status": "proved",
   "theorems": [
    "RustDct.C77_gain",
    "RustDct.C77_gains",
    "RustDct.C77_planned",
    "RustDct.C77_planned_constructed",
    "RustDct.C77_constructed",
    "RustDct.C77_stable",
    "RustDct.C77_stable_constructed",
    "RustDct.C77_mdct",
    "RustDct.C77_imdct"
   ],
   "note": "structure Rounding as for C51 (no overflow or underflow); hypotheses on the FFTs as for C51 and C67"
  },
  {
   "property": "C78",
   "status": "proved",
   "theorems": [
    "RustDct.C78_memory",
    "RustDct.C78_created",
    "RustDct.C78_linear",
    "RustDct.C78_log",
    "RustDct.C78_repeated",
    "RustDct.C78_reached",
    "RustDct.C78_planned23",
    "RustDct.C78_planned4",
    "RustDct.C78_plannedMdct",
    "RustDct.C78_made23",
    "RustDct.C78_made4",
    "RustDct.C78_madeMdct"
   ],
   "note": "counted are the numbers in the structs' tables and windows (Verif/Memory.lean); not counted: what rustfft keeps, fixed fields, spare capacity of vectors and hash maps; hypothesis PlanFftShape on the FFT planner"
  },
  {
   "property": "C79",
   "status": "proved",
   "theorems": [
    "RustDct.C79_planning",
    "RustDct.C79_planning_needs",
    "RustDct.C79_planned23",
    "RustDct.C79_planned4",
    "RustDct.C79_plannedMdct",
    "RustDct.C79_made23",
    "RustDct.C79_made4",
    "RustDct.C79_madeMdct"
   ],
   "note": "levels are counted in calls between instances and between planner methods, not in bytes of stack; calls inside an FFT are not counted; hypothesis PlanFftShape on the FFT planner for planned instances"
  },
  {
   "property": "C80",
   "status": "proved",
   "theorems": [
    "RustDct.C80_dct1",
    "RustDct.C80_dst1",
    "RustDct.C80_dct5",
    "RustDct.C80_dst5",
    "RustDct.C80_dct67",
    "RustDct.C80_dst67",
    "RustDct.C80_dct8",
    "RustDct.C80_dst8",
    "RustDct.C80_splitRadix",
    "RustDct.C80_type4Even",
    "RustDct.C80_dst1_wraps"
   ],
   "note": "the remaining structs return a field, a constant, a quotient of a table length, or the len() of an inner instance; Realistic: 8 * (largest Vec length) fits into usize"
  },
  {
   "property": "C81",
   "status": "proved",
   "theorems": [
    "RustDct.C81_dct1",
    "RustDct.C81_dst1",
    "RustDct.C81_type23",
    "RustDct.C81_type4",
    "RustDct.C81_dct5",
    "RustDct.C81_dst5",
    "RustDct.C81_dct67",
    "RustDct.C81_dst67",
    "RustDct.C81_dct8",
    "RustDct.C81_dst8",
    "RustDct.C81_fft23",
    "RustDct.C81_splitRadix",
    "RustDct.C81_type4Even",
    "RustDct.C81_butterfly3",
    "RustDct.C81_butterfly4",
    "RustDct.C81_butterfly8",
    "RustDct.C81_butterfly16",
    "RustDct.C81_mdct",
    "RustDct.C81_windows"
   ],
   "note": "the remaining constructors convert no number; not covered: 0.5 and 2, which the methods convert while processing, and the planner"
  },
  {
   "property": "C82",
   "status": "proved",
   "theorems": [
    "RustDct.C82_planned",
    "RustDct.C82_safe",
    "RustDct.C82_computes",
    "RustDct.C82_total",
    "RustDct.C82_asks",
    "RustDct.C82_remembered",
    "RustDct.C82_mdct",
    "RustDct.C82_mdct_fresh",
    "RustDct.C82_mdct_remembered"
   ],
   "note": "a panic inside an FFT while processing is not covered here"
  },
  {
   "property": "C83",
   "status": "proved",
   "theorems": [
    "RustDct.C83_same",
    "RustDct.C83_same_type3",
    "RustDct.C83_exact",
    "RustDct.C83_buffer",
    "RustDct.C83_type3",
    "RustDct.C83_planned",
    "RustDct.C83_planned_none",
    "RustDct.C83_mdct",
    "RustDct.C83_planned_mdct"
   ],
   "note": "C83_same: the recorded methods are the methods of the basic model"
  },
  {
   "property": "C84",
   "status": "proved",
   "theorems": [
    "RustDct.C84_same",
    "RustDct.C84_same_mdct",
    "RustDct.C84_planned",
    "RustDct.C84_safe",
    "RustDct.C84_computes",
    "RustDct.C84_total",
    "RustDct.C84_remembered",
    "RustDct.C84_mdct",
    "RustDct.C84_mdct_fresh",
    "RustDct.C84_mdct_remembered"
   ],
   "note": "C84_same: without faults this is the planner of C82; crash points are the constructions and the cache insertions"
  },
  {
   "property": "C85",
   "status": "proved",
   "theorems": [
    "RustDct.C85_made",
    "RustDct.C85_made_dst2",
    "RustDct.C85_planned",
    "RustDct.C85_planned_dst2",
    "RustDct.C85_mdct_made",
    "RustDct.C85_mdct_planned"
   ],
   "note": "the exception for DST2 of split radix is part of the statement (C85_made_dst2, C85_planned_dst2)"
  },
  {
   "property": "C86",
   "status": "proved",
   "theorems": [
    "RustDct.C86_exact",
    "RustDct.C86_seam",
    "RustDct.C86_reconstructs",
    "RustDct.C86_transition"
   ],
   "note": "over the reals; C86_seam is an equivalence"
  },
  {
   "property": "C87",
   "status": "proved",
   "theorems": [
    "RustDct.C87_analysis",
    "RustDct.C87_synthesis",
    "RustDct.C87_quantised",
    "RustDct.C87_made",
    "RustDct.C87_planned"
   ],
   "note": "over the reals"
  },
  {
   "property": "C88",
   "status": "proved",
   "theorems": [
    "RustDct.C88_made",
    "RustDct.C88_planned"
   ],
   "note": "over the reals; DST1, DST6 and DST7 with zeroed scratch (C30)"
  },
  {
   "property": "C89",
   "status": "proved",
   "theorems": [
    "RustDct.C89_made",
    "RustDct.C89_planned",
    "RustDct.C89_no_fft",
    "RustDct.C89_f32",
    "RustDct.C89_f64",
    "RustDct.C89_mdct_made",
    "RustDct.C89_mdct_planned",
    "RustDct.C89_mdct_f32",
    "RustDct.C89_mdct_f64"
   ],
   "note": "FFT hypotheses FftRel Opposite, FftOfGain/PlanFftRange, FftSane (all met by sumFft); none for instances without FFT"
  },
  {
   "property": "C90",
   "status": "proved",
   "theorems": [
    "RustDct.C90_reference",
    "RustDct.C90_f64",
    "RustDct.C90_planned",
    "RustDct.C90_constructed",
    "RustDct.C90_slowMdct",
    "RustDct.C90_slowImdct",
    "RustDct.C90_mdct",
    "RustDct.C90_imdct"
   ],
   "note": "in the rounding model of Verif/Rounding.lean (no overflow or underflow)"
  },
  {
   "property": "C91",
   "status": "proved",
   "theorems": [
    "RustDct.C91_same",
    "RustDct.C91_splitRadix",
    "RustDct.C91_type4",
    "RustDct.C91_composed",
    "RustDct.C91_mdct",
    "RustDct.C91_fft",
    "RustDct.C91_made"
   ],
   "note": ""
  },
  {
   "property": "C92",
   "status": "proved",
   "theorems": [
    "RustDct.C92_made",
    "RustDct.C92_planned",
    "RustDct.C92_reconstructs",
    "RustDct.C92_quantiser",
    "RustDct.C92_unchanged",
    "RustDct.C92_lossless"
   ],
   "note": "in the rounding model of Verif/Rounding.lean (no overflow or underflow); a planner ignores the window of a length it has planned before (C36, C49), so CodecPlanned is about the effective window"
  },
  {
   "property": "C93",
   "status": "proved",
   "theorems": [
    "RustDct.C93_made",
    "RustDct.C93_planned",
    "RustDct.C93_jpeg",
    "RustDct.C93_order",
    "RustDct.C93_inverse",
    "RustDct.C93_shared_made",
    "RustDct.C93_shared_planned",
    "RustDct.C93_planned_float",
    "RustDct.C93_made_float",
    "RustDct.C93_returns_planned",
    "RustDct.C93_returns_made"
   ],
   "note": "exact arithmetic over FftContract; floating point in the rounding model of Verif/Rounding.lean; the image is a vector of rows, the transposition a client loop"
  },
  {
   "property": "C94",
   "status": "proved",
   "theorems": [
    "RustDct.C94_diagonal_made",
    "RustDct.C94_diagonal_planned",
    "RustDct.C94_solves_made",
    "RustDct.C94_solves_planned",
    "RustDct.C94_unique",
    "RustDct.C94_diffusion",
    "RustDct.C94_poisson",
    "RustDct.C94_neumann",
    "RustDct.C94_image_made",
    "RustDct.C94_image_planned",
    "RustDct.C94_image_poisson"
   ],
   "note": "exact arithmetic; the length is at least 2 because the mirrored sample must exist"
  },
  {
   "property": "C95",
   "status": "proved",
   "theorems": [
    "RustDct.C95_exists",
    "RustDct.C95_unique",
    "RustDct.C95_filters_made",
    "RustDct.C95_filters_planned"
   ],
   "note": "exact arithmetic; the length is at least 2 because the mirrored sample must exist"
  },
  {
   "property": "C96",
   "status": "proved",
   "theorems": [
    "RustDct.C96_made",
    "RustDct.C96_planned",
    "RustDct.C96_diffusion",
    "RustDct.C96_fir",
    "RustDct.C96_image"
   ],
   "note": "in the rounding model of Verif/Rounding.lean (no overflow or underflow); images for planned instances"
  },
  {
   "property": "C97",
   "status": "proved",
   "theorems": [
    "RustDct.C97_gauss_made",
    "RustDct.C97_lobatto_made",
    "RustDct.C97_gauss_eval_made",
    "RustDct.C97_lobatto_eval_made",
    "RustDct.C97_planned"
   ],
   "note": "exact arithmetic"
  },
  {
   "property": "C98",
   "status": "proved",
   "theorems": [
    "RustDct.C98_gauss_made",
    "RustDct.C98_gauss_planned",
    "RustDct.C98_lobatto_made",
    "RustDct.C98_lobatto_planned"
   ],
   "note": "in the rounding model of Verif/Rounding.lean (no overflow or underflow); the polynomial is evaluated exactly, only the coefficients are rounded"
  }
 ]
}