{"id": "C01", "title": "DCT1 computes its definition", "statement": "In exact real arithmetic, process_dct1 (and the _with_scratch form with zeroed scratch of the required length) on an instance of length n replaces the buffer x by y with y[k] = x[0]/2 + x[n-1]*cos(k*pi)/2 + sum_{0<i<n-1} x[i]*cos(k*i*pi/(n-1)), unnormalised, for every algorithm struct implementing Dct1 and for the instance the planner returns.", "quantifier": "every length n >= 2, every real input buffer, every planner history, every FFT provider that meets the DFT contract", "why_tests_cant": "Tests compare a handful of sizes (mostly 1..20) on one pseudo-random signal with tolerance 1e-3; size-dependent index/twiddle/sign errors at other sizes, or on inputs where a wrong term happens to be small, stay invisible.", "anchors": ["src/algorithm/type1_naive.rs: Dct1Naive", "src/algorithm/type1_convert_to_fft.rs: Dct1ConvertToFft", "src/plan.rs: plan_dct1"]}
{"id": "C02", "title": "DCT2 computes its definition", "statement": "In exact real arithmetic, process_dct2 (and the _with_scratch form with zeroed scratch of the required length) on an instance of length n replaces the buffer x by y with y[k] = sum_i x[i]*cos(k*(i+1/2)*pi/n), unnormalised, for every algorithm struct implementing Dct2 and for the instance the planner returns.", "quantifier": "every length n >= 1, every real input buffer, every planner history, every FFT provider that meets the DFT contract", "why_tests_cant": "Tests compare a handful of sizes (mostly 1..20) on one pseudo-random signal with tolerance 1e-3; size-dependent index/twiddle/sign errors at other sizes, or on inputs where a wrong term happens to be small, stay invisible.", "anchors": ["src/algorithm/type2and3_naive.rs: Type2And3Naive", "src/algorithm/type2and3_convert_to_fft.rs: Type2And3ConvertToFft", "src/algorithm/type2and3_splitradix.rs: Type2And3SplitRadix", "src/algorithm/type2and3_butterflies.rs: Type2And3Butterfly{2,3,4,8,16}", "src/plan.rs: plan_dct2"]}
{"id": "C03", "title": "DCT3 computes its definition", "statement": "In exact real arithmetic, process_dct3 (and the _with_scratch form with zeroed scratch of the required length) on an instance of length n replaces the buffer x by y with y[k] = x[0]/2 + sum_{i>=1} x[i]*cos((k+1/2)*i*pi/n), unnormalised, for every algorithm struct implementing Dct3 and for the instance the planner returns.", "quantifier": "every length n >= 1, every real input buffer, every planner history, every FFT provider that meets the DFT contract", "why_tests_cant": "Tests compare a handful of sizes (mostly 1..20) on one pseudo-random signal with tolerance 1e-3; size-dependent index/twiddle/sign errors at other sizes, or on inputs where a wrong term happens to be small, stay invisible.", "anchors": ["src/algorithm/type2and3_naive.rs: Type2And3Naive", "src/algorithm/type2and3_convert_to_fft.rs: Type2And3ConvertToFft", "src/algorithm/type2and3_splitradix.rs: Type2And3SplitRadix", "src/algorithm/type2and3_butterflies.rs", "src/plan.rs: plan_dct3"]}
{"id": "C04", "title": "DCT4 computes its definition", "statement": "In exact real arithmetic, process_dct4 (and the _with_scratch form with zeroed scratch of the required length) on an instance of length n replaces the buffer x by y with y[k] = sum_i x[i]*cos((k+1/2)*(i+1/2)*pi/n), unnormalised, for every algorithm struct implementing Dct4 and for the instance the planner returns.", "quantifier": "every length n >= 1, every real input buffer, every planner history, every FFT provider that meets the DFT contract", "why_tests_cant": "Tests compare a handful of sizes (mostly 1..20) on one pseudo-random signal with tolerance 1e-3; size-dependent index/twiddle/sign errors at other sizes, or on inputs where a wrong term happens to be small, stay invisible.", "anchors": ["src/algorithm/type4_naive.rs: Type4Naive", "src/algorithm/type4_convert_to_type3.rs: Type4ConvertToType3Even", "src/algorithm/type4_convert_to_fft.rs: Type4ConvertToFftOdd", "src/plan.rs: plan_dct4"]}
{"id": "C05", "title": "DCT5 computes its definition", "statement": "In exact real arithmetic, process_dct5 (and the _with_scratch form with zeroed scratch of the required length) on an instance of length n replaces the buffer x by y with y[k] = x[0]/2 + sum_{i>=1} x[i]*cos(k*i*pi/(n-1/2)), unnormalised, for every algorithm struct implementing Dct5 and for the instance the planner returns.", "quantifier": "every length n >= 1, every real input buffer, every planner history, every FFT provider that meets the DFT contract", "why_tests_cant": "Tests compare a handful of sizes (mostly 1..20) on one pseudo-random signal with tolerance 1e-3; size-dependent index/twiddle/sign errors at other sizes, or on inputs where a wrong term happens to be small, stay invisible.", "anchors": ["src/algorithm/type5_naive.rs: Dct5Naive", "src/plan.rs: plan_dct5"]}
{"id": "C06", "title": "DCT6 computes its definition", "statement": "In exact real arithmetic, process_dct6 (and the _with_scratch form with zeroed scratch of the required length) on an instance of length n replaces the buffer x by y with y[k] = sum_{i<n-1} x[i]*cos(k*(i+1/2)*pi/(n-1/2)) + the last term halved, unnormalised, for every algorithm struct implementing Dct6 and for the instance the planner returns.", "quantifier": "every length n >= 1, every real input buffer, every planner history, every FFT provider that meets the DFT contract", "why_tests_cant": "Tests compare a handful of sizes (mostly 1..20) on one pseudo-random signal with tolerance 1e-3; size-dependent index/twiddle/sign errors at other sizes, or on inputs where a wrong term happens to be small, stay invisible.", "anchors": ["src/algorithm/type6and7_naive.rs: Dct6And7Naive", "src/plan.rs: plan_dct6"]}
{"id": "C07", "title": "DCT7 computes its definition", "statement": "In exact real arithmetic, process_dct7 (and the _with_scratch form with zeroed scratch of the required length) on an instance of length n replaces the buffer x by y with y[k] = x[0]/2 + sum_{i>=1} x[i]*cos((k+1/2)*i*pi/(n-1/2)), unnormalised, for every algorithm struct implementing Dct7 and for the instance the planner returns.", "quantifier": "every length n >= 1, every real input buffer, every planner history, every FFT provider that meets the DFT contract", "why_tests_cant": "Tests compare a handful of sizes (mostly 1..20) on one pseudo-random signal with tolerance 1e-3; size-dependent index/twiddle/sign errors at other sizes, or on inputs where a wrong term happens to be small, stay invisible.", "anchors": ["src/algorithm/type6and7_naive.rs: Dct6And7Naive", "src/plan.rs: plan_dct7"]}
{"id": "C08", "title": "DCT8 computes its definition", "statement": "In exact real arithmetic, process_dct8 (and the _with_scratch form with zeroed scratch of the required length) on an instance of length n replaces the buffer x by y with y[k] = sum_i x[i]*cos((k+1/2)*(i+1/2)*pi/(n+1/2)), unnormalised, for every algorithm struct implementing Dct8 and for the instance the planner returns.", "quantifier": "every length n >= 0, every real input buffer, every planner history, every FFT provider that meets the DFT contract", "why_tests_cant": "Tests compare a handful of sizes (mostly 1..20) on one pseudo-random signal with tolerance 1e-3; size-dependent index/twiddle/sign errors at other sizes, or on inputs where a wrong term happens to be small, stay invisible.", "anchors": ["src/algorithm/type8_naive.rs: Dct8Naive", "src/plan.rs: plan_dct8"]}
{"id": "C09", "title": "DST1 computes its definition", "statement": "In exact real arithmetic, process_dst1 (and the _with_scratch form with zeroed scratch of the required length) on an instance of length n replaces the buffer x by y with y[k] = sum_i x[i]*sin((k+1)*(i+1)*pi/(n+1)), unnormalised, for every algorithm struct implementing Dst1 and for the instance the planner returns.", "quantifier": "every length n >= 0, every real input buffer, every planner history, every FFT provider that meets the DFT contract", "why_tests_cant": "Tests compare a handful of sizes (mostly 1..20) on one pseudo-random signal with tolerance 1e-3; size-dependent index/twiddle/sign errors at other sizes, or on inputs where a wrong term happens to be small, stay invisible.", "anchors": ["src/algorithm/type1_naive.rs: Dst1Naive", "src/algorithm/type1_convert_to_fft.rs: Dst1ConvertToFft", "src/plan.rs: plan_dst1"]}
{"id": "C10", "title": "DST2 computes its definition", "statement": "In exact real arithmetic, process_dst2 (and the _with_scratch form with zeroed scratch of the required length) on an instance of length n replaces the buffer x by y with y[k] = sum_i x[i]*sin((k+1)*(i+1/2)*pi/n), unnormalised, for every algorithm struct implementing Dst2 and for the instance the planner returns.", "quantifier": "every length n >= 1, every real input buffer, every planner history, every FFT provider that meets the DFT contract", "why_tests_cant": "Tests compare a handful of sizes (mostly 1..20) on one pseudo-random signal with tolerance 1e-3; size-dependent index/twiddle/sign errors at other sizes, or on inputs where a wrong term happens to be small, stay invisible.", "anchors": ["src/algorithm/type2and3_naive.rs", "src/algorithm/type2and3_convert_to_fft.rs", "src/algorithm/type2and3_splitradix.rs", "src/algorithm/type2and3_butterflies.rs", "src/plan.rs: plan_dst2"]}
{"id": "C11", "title": "DST3 computes its definition", "statement": "In exact real arithmetic, process_dst3 (and the _with_scratch form with zeroed scratch of the required length) on an instance of length n replaces the buffer x by y with y[k] = sum_{i<n-1} x[i]*sin((k+1/2)*(i+1)*pi/n) + the last term halved, unnormalised, for every algorithm struct implementing Dst3 and for the instance the planner returns.", "quantifier": "every length n >= 1, every real input buffer, every planner history, every FFT provider that meets the DFT contract", "why_tests_cant": "Tests compare a handful of sizes (mostly 1..20) on one pseudo-random signal with tolerance 1e-3; size-dependent index/twiddle/sign errors at other sizes, or on inputs where a wrong term happens to be small, stay invisible.", "anchors": ["src/algorithm/type2and3_naive.rs", "src/algorithm/type2and3_convert_to_fft.rs", "src/algorithm/type2and3_splitradix.rs", "src/algorithm/type2and3_butterflies.rs", "src/plan.rs: plan_dst3"]}
{"id": "C12", "title": "DST4 computes its definition", "statement": "In exact real arithmetic, process_dst4 (and the _with_scratch form with zeroed scratch of the required length) on an instance of length n replaces the buffer x by y with y[k] = sum_i x[i]*sin((k+1/2)*(i+1/2)*pi/n), unnormalised, for every algorithm struct implementing Dst4 and for the instance the planner returns.", "quantifier": "every length n >= 1, every real input buffer, every planner history, every FFT provider that meets the DFT contract", "why_tests_cant": "Tests compare a handful of sizes (mostly 1..20) on one pseudo-random signal with tolerance 1e-3; size-dependent index/twiddle/sign errors at other sizes, or on inputs where a wrong term happens to be small, stay invisible.", "anchors": ["src/algorithm/type4_naive.rs", "src/algorithm/type4_convert_to_type3.rs", "src/algorithm/type4_convert_to_fft.rs", "src/plan.rs: plan_dst4"]}
{"id": "C13", "title": "DST5 computes its definition", "statement": "In exact real arithmetic, process_dst5 (and the _with_scratch form with zeroed scratch of the required length) on an instance of length n replaces the buffer x by y with y[k] = sum_i x[i]*sin((k+1)*(i+1)*pi/(n+1/2)), unnormalised, for every algorithm struct implementing Dst5 and for the instance the planner returns.", "quantifier": "every length n >= 0, every real input buffer, every planner history, every FFT provider that meets the DFT contract", "why_tests_cant": "Tests compare a handful of sizes (mostly 1..20) on one pseudo-random signal with tolerance 1e-3; size-dependent index/twiddle/sign errors at other sizes, or on inputs where a wrong term happens to be small, stay invisible.", "anchors": ["src/algorithm/type5_naive.rs: Dst5Naive", "src/plan.rs: plan_dst5"]}
{"id": "C14", "title": "DST6 computes its definition", "statement": "In exact real arithmetic, process_dst6 (and the _with_scratch form with zeroed scratch of the required length) on an instance of length n replaces the buffer x by y with y[k] = sum_i x[i]*sin((k+1)*(i+1/2)*pi/(n+1/2)), unnormalised, for every algorithm struct implementing Dst6 and for the instance the planner returns.", "quantifier": "every length n >= 0, every real input buffer, every planner history, every FFT provider that meets the DFT contract", "why_tests_cant": "Tests compare a handful of sizes (mostly 1..20) on one pseudo-random signal with tolerance 1e-3; size-dependent index/twiddle/sign errors at other sizes, or on inputs where a wrong term happens to be small, stay invisible.", "anchors": ["src/algorithm/type6and7_naive.rs: Dst6And7Naive", "src/algorithm/type6and7_convert_to_fft.rs: Dst6And7ConvertToFft", "src/plan.rs: plan_dst6"]}
{"id": "C15", "title": "DST7 computes its definition", "statement": "In exact real arithmetic, process_dst7 (and the _with_scratch form with zeroed scratch of the required length) on an instance of length n replaces the buffer x by y with y[k] = sum_i x[i]*sin((k+1/2)*(i+1)*pi/(n+1/2)), unnormalised, for every algorithm struct implementing Dst7 and for the instance the planner returns.", "quantifier": "every length n >= 0, every real input buffer, every planner history, every FFT provider that meets the DFT contract", "why_tests_cant": "Tests compare a handful of sizes (mostly 1..20) on one pseudo-random signal with tolerance 1e-3; size-dependent index/twiddle/sign errors at other sizes, or on inputs where a wrong term happens to be small, stay invisible.", "anchors": ["src/algorithm/type6and7_naive.rs: Dst6And7Naive", "src/algorithm/type6and7_convert_to_fft.rs: Dst6And7ConvertToFft", "src/plan.rs: plan_dst7"]}
{"id": "C16", "title": "DST8 computes its definition", "statement": "In exact real arithmetic, process_dst8 (and the _with_scratch form with zeroed scratch of the required length) on an instance of length n replaces the buffer x by y with y[k] = sum_{i<n-1} x[i]*sin((k+1/2)*(i+1/2)*pi/(n-1/2)) + the last term halved, unnormalised, for every algorithm struct implementing Dst8 and for the instance the planner returns.", "quantifier": "every length n >= 1, every real input buffer, every planner history, every FFT provider that meets the DFT contract", "why_tests_cant": "Tests compare a handful of sizes (mostly 1..20) on one pseudo-random signal with tolerance 1e-3; size-dependent index/twiddle/sign errors at other sizes, or on inputs where a wrong term happens to be small, stay invisible.", "anchors": ["src/algorithm/type8_naive.rs: Dst8Naive", "src/plan.rs: plan_dst8"]}
{"id": "C17", "title": "Types 2 and 3 invert each other", "statement": "Running process_dct2 then process_dct3 (or dct3 then dct2) of planned instances of length n multiplies every buffer by n/2, in exact arithmetic; the same for process_dst2/process_dst3.", "quantifier": "every n >= 1, every real buffer, both orders", "why_tests_cant": "tests/test_dct.rs only inverts the reference formulas for n < 20 on one signal; a user inverts planner-chosen algorithms at arbitrary n.", "anchors": ["src/lib.rs: Dct2, Dct3, Dst2, Dst3", "tests/test_dct.rs: inverse_scale_normal"]}
{"id": "C18", "title": "Type 4 is its own inverse", "statement": "Running process_dct4 twice (or process_dst4 twice) on a planned instance of length n multiplies every buffer by n/2.", "quantifier": "every n >= 1, every real buffer", "why_tests_cant": "tests/test_dct.rs only inverts the reference formulas for n < 20 on one signal; a user inverts planner-chosen algorithms at arbitrary n.", "anchors": ["src/lib.rs: Dct4, Dst4", "tests/test_dct.rs: inverse_scale_normal"]}
{"id": "C19", "title": "Type 1 is its own inverse", "statement": "process_dct1 twice multiplies every buffer by (n-1)/2 (n >= 2) and process_dst1 twice by (n+1)/2.", "quantifier": "every n, every real buffer", "why_tests_cant": "tests/test_dct.rs only inverts the reference formulas for n < 20 on one signal; a user inverts planner-chosen algorithms at arbitrary n.", "anchors": ["src/lib.rs: Dct1, Dst1", "tests/test_dct.rs: inverse_scale_dct1, inverse_scale_dst1"]}
{"id": "C20", "title": "Types 5 to 8 invert with half-integer scales", "statement": "DCT5 twice scales by (n-1/2)/2, DST5 twice by (n+1/2)/2, DCT6/DCT7 in either order by (n-1/2)/2, DST6/DST7 by (n+1/2)/2, DCT8 twice by (n+1/2)/2, DST8 twice by (n-1/2)/2.", "quantifier": "every n >= 1, every real buffer", "why_tests_cant": "tests/test_dct.rs only inverts the reference formulas for n < 20 on one signal; a user inverts planner-chosen algorithms at arbitrary n.", "anchors": ["src/lib.rs: Dct5..Dct8, Dst5..Dst8", "tests/test_dct.rs: inverse_scale_minushalf, inverse_scale_plushalf"]}
{"id": "C21", "title": "MDCT computes its definition", "statement": "process_mdct_with_scratch of length n (both the naive struct and the one converting to DCT4, and the planned instance) sets output[k] = sum_{i<2n} in[i]*window[i]*cos((i+1/2+n/2)*(k+1/2)*pi/n), whatever the output buffer held before.", "quantifier": "every even n >= 2, every window of length 2n, every input pair, every prior output content; the planned instance uses the window given to the first successful plan_mdct call for n (see C36, C49)", "why_tests_cant": "Tests compare a handful of sizes (mostly 1..20) on one pseudo-random signal with tolerance 1e-3; size-dependent index/twiddle/sign errors at other sizes, or on inputs where a wrong term happens to be small, stay invisible.", "anchors": ["src/mdct/mdct_naive.rs: MdctNaive", "src/mdct/mdct_via_dct4.rs: MdctViaDct4", "src/plan.rs: plan_mdct"]}
{"id": "C22", "title": "IMDCT adds its definition to the output", "statement": "process_imdct_with_scratch adds window[i]*sum_k in[k]*cos((i+1/2+n/2)*(k+1/2)*pi/n) to what output_a/output_b already hold (it never overwrites), for both MDCT structs and the planned instance.", "quantifier": "every even n >= 2, every window, every input, every prior output content; planned instances as in C21", "why_tests_cant": "Tests compare a handful of sizes (mostly 1..20) on one pseudo-random signal with tolerance 1e-3; size-dependent index/twiddle/sign errors at other sizes, or on inputs where a wrong term happens to be small, stay invisible.", "anchors": ["src/mdct/mdct_naive.rs: process_imdct_with_scratch", "src/mdct/mdct_via_dct4.rs: process_imdct_with_scratch", "src/mdct/mod.rs: Mdct"]}
{"id": "C23", "title": "Overlapped MDCT/IMDCT reconstructs the signal (TDAC)", "statement": "Running MDCT on every overlapping pair of consecutive length-n blocks of a signal and IMDCT-accumulating the results gives every interior sample multiplied by c*n/2, when the window is symmetric and satisfies w[i]^2 + w[i+n]^2 = c.", "quantifier": "every even n >= 2, every number of blocks, every signal, every symmetric window with the Princen-Bradley condition, whatever the reused coefficient and scratch buffers contain", "why_tests_cant": "tests/test_dct.rs runs 5 segments at 11 sizes with one signal.", "anchors": ["tests/common/macros.rs: test_tdac", "src/mdct/mdct_via_dct4.rs"]}
{"id": "C24", "title": "Built-in windows satisfy Princen-Bradley", "statement": "Each built-in window has the values of the sine window (mp3), the Vorbis power sine window (vorbis) or the flat window (one), scaled by sqrt(4/len) or sqrt(2/len) for the invertible variants. For window length 2n each is symmetric and w[i]^2+w[i+n]^2 equals 1 (mp3, vorbis), 2 (one), 2/n (invertible, mp3_invertible, vorbis_invertible).", "quantifier": "every n >= 1, every i < n", "why_tests_cant": "test_window_fns checks mp3 and vorbis up to n = 19 in f32, and none of the invertible windows.", "anchors": ["src/mdct/window_fn.rs"]}
{"id": "C25", "title": "Invertible windows make the lapped transform unit-gain", "statement": "With invertible, mp3_invertible or vorbis_invertible the overlapped MDCT/IMDCT chain of the planned instance returns the interior of the signal unchanged; with one it is scaled by n, with mp3/vorbis by n/2.", "quantifier": "every even n >= 2, every number of blocks, every signal", "why_tests_cant": "the TDAC tests sample sizes and a single signal.", "anchors": ["src/mdct/window_fn.rs", "tests/test_dct.rs: test_mdct_tdac"]}
{"id": "C26", "title": "Valid calls never panic and never touch memory out of bounds", "statement": "For every planner-made instance and every algorithm struct, a call with buffer length len() and scratch length >= get_scratch_len() returns normally: no index or slice panic, no arithmetic underflow, and every get_unchecked access is in bounds.", "quantifier": "every transform type, every length in the constructor's domain except the degenerate ones of C46, every element type and every element value (NaN included), every scratch content", "why_tests_cant": "The unchecked accesses are undefined behaviour when wrong, which a passing test does not reveal, and sizes are unbounded.", "anchors": ["src/algorithm/type2and3_splitradix.rs: get_unchecked", "src/algorithm/type2and3_butterflies.rs: get_unchecked", "src/algorithm/*.rs: process_*_with_scratch", "src/mdct/*.rs"]}
{"id": "C27", "title": "Wrong buffer or scratch sizes always panic", "statement": "A call whose buffer length differs from len(), or whose scratch is shorter than get_scratch_len(), panics; it never returns normally and never reads out of bounds.", "quantifier": "every instance, every buffer length, every scratch length, every content", "why_tests_cant": "the error helper returns unit and the macro then silently returns, so only a proof shows the silent path is unreachable; tests never call with wrong sizes.", "anchors": ["src/common.rs: validate_buffer, validate_buffers, validate_buffers_mdct, dct_error_inplace, mdct_error_inplace"]}
{"id": "C28", "title": "A rejected call leaves the caller's buffers untouched", "statement": "When a call panics because of a wrong buffer or scratch size, buffer and scratch still hold what they held before the call.", "quantifier": "every instance, every wrong size combination, every content", "why_tests_cant": "needs the state at the panic point, over every size; tests never look.", "anchors": ["src/common.rs: validate_buffers", "src/algorithm/type2and3_splitradix.rs: process_dst2_with_scratch, process_dst3_with_scratch"]}
{"id": "C29", "title": "Oversized scratch is harmless", "statement": "With scratch longer than get_scratch_len() the call succeeds, produces the same output as with exactly get_scratch_len() elements, and does not modify the elements beyond get_scratch_len().", "quantifier": "every instance, every oversize, every content", "why_tests_cant": "RELEASES.md 0.7 promises it; no test passes oversized scratch.", "anchors": ["src/common.rs: validate_buffers", "RELEASES.md: Release 0.7"]}
{"id": "C30", "title": "Scratch contents do not influence results", "statement": "The output of a _with_scratch call does not depend on what the scratch buffer contained before the call (bit for bit, for any element type).", "quantifier": "every instance, every pair of scratch contents, every input", "why_tests_cant": "tests always pass freshly zeroed scratch.", "anchors": ["src/algorithm/type1_convert_to_fft.rs: Dst1ConvertToFft", "src/algorithm/type6and7_convert_to_fft.rs: Dst6And7ConvertToFft", "src/algorithm/*.rs: process_*_with_scratch"]}
{"id": "C31", "title": "Scratch can be reused across any sequence of calls", "statement": "Running any sequence of transforms that share one scratch buffer gives the same outputs as giving each call its own zeroed scratch.", "quantifier": "every finite sequence of calls on planned instances, every input", "why_tests_cant": "needs all histories; the tests allocate per call.", "anchors": ["src/lib.rs: process_*_with_scratch", "src/lib.rs: RequiredScratch"]}
{"id": "C32", "title": "Instances report the requested length", "statement": "len() of a planned instance, and of every naive struct built for `len`, equals the requested length, although most structs recompute it from a twiddle table size.", "quantifier": "every length in the constructor's domain, every transform type", "why_tests_cant": "arithmetic on table sizes ((4n-2+2)/4 etc.) for all n.", "anchors": ["src/plan.rs", "src/algorithm/*_naive.rs: Length"]}
{"id": "C33", "title": "The planner's domain is exactly the documented one", "statement": "On any planner state, plan_dct1 panics exactly for len 0 and 1, plan_dct5/6/7 and plan_dst8 exactly for len 0, plan_mdct for a length not yet planned exactly for odd len or a window function returning the wrong number of values, and every other plan call succeeds.", "quantifier": "every planner history, every transform type, every length, every window function", "why_tests_cant": "unbounded lengths and histories.", "anchors": ["src/plan.rs", "src/algorithm/type1_naive.rs: Dct1Naive::new", "src/mdct/mdct_via_dct4.rs: MdctViaDct4::new"]}
{"id": "C34", "title": "Planner results do not depend on history", "statement": "After any sequence of plan calls, including ones that panicked, a plan call returns an instance with the same input/output behaviour as the one a fresh planner would return.", "quantifier": "every finite history of plan calls with any lengths and window functions (MDCT excepted, see the window property)", "why_tests_cant": "histories are unbounded; tests always use a fresh planner.", "anchors": ["src/plan.rs: DctPlanner"]}
{"id": "C35", "title": "Planner caches and shares instances", "statement": "Planning the same transform and length again returns the very same shared instance and changes nothing in the planner; plan_dct2/dct3/dst2/dst3 share one instance per length, as do dct4/dst4, dct6/dct7 and dst6/dst7.", "quantifier": "every history, every length", "why_tests_cant": "identity over histories, not an input/output test.", "anchors": ["src/plan.rs: *_cache"]}
{"id": "C36", "title": "plan_mdct honours the window function", "statement": "An instance returned by plan_mdct(len, w) applies the window w(2*len).", "quantifier": "every history, every even len, every window function", "why_tests_cant": "the cache key omits the window, so the violation needs a two-call history; tests use a new planner for each window.", "anchors": ["src/plan.rs: plan_mdct, mdct_cache"]}
{"id": "C37", "title": "Constructors reject unusable inner transforms", "statement": "Dct1ConvertToFft/Dst1ConvertToFft reject odd FFTs, Dst6And7ConvertToFft and Type4ConvertToFftOdd reject even FFTs, all FFT-based structs reject inverse FFTs, Type2And3SplitRadix rejects inner lengths that are not (2q,q) with 4q a power of two > 2, MDCT structs reject odd lengths and wrong window sizes; everything else is accepted, except the degenerate lengths: an empty FFT for Dst1ConvertToFft, length 0 for the naive DCT5, DCT6/7 and DST8, lengths 0 and 1 for the naive DCT1 (C46).", "quantifier": "every inner FFT / DCT length and direction, every window function result", "why_tests_cant": "domain-wide acceptance/rejection boundaries.", "anchors": ["src/algorithm/*_convert_to_fft.rs: new", "src/algorithm/type2and3_splitradix.rs: new", "src/mdct/*.rs: new"]}
{"id": "C38", "title": "User-composed instances are correct", "statement": "A Type2And3SplitRadix, Type4ConvertToType3Even or MdctViaDct4 built from any correct inner instances accepted by its constructor computes its transform and does not panic on valid calls, provided that the inner instances of a split radix need no more scratch than the outer length and the inner instance of a type 4 conversion is not empty (see C46 and C47 for what happens otherwise).", "quantifier": "every inner implementation that meets the trait contract, every length", "why_tests_cant": "inner implementations are arbitrary (public trait).", "anchors": ["src/algorithm/type2and3_splitradix.rs", "src/algorithm/type4_convert_to_type3.rs", "src/mdct/mdct_via_dct4.rs"]}
{"id": "C39", "title": "Transforms are linear", "statement": "For every planned instance, process(a*x + b*y) = a*process(x) + b*process(y) in exact arithmetic; in particular the zero buffer maps to zero.", "quantifier": "every transform type, length, scalars, buffers", "why_tests_cant": "universally quantified algebraic law.", "anchors": ["src/lib.rs"]}
{"id": "C40", "title": "Default methods equal the _with_scratch methods", "statement": "process_xxx(buffer) has exactly the effect of process_xxx_with_scratch with a zeroed scratch of get_scratch_len() and hence of any valid scratch where scratch contents do not matter.", "quantifier": "every instance, every buffer, every element type", "why_tests_cant": "over all contents.", "anchors": ["src/lib.rs: process_* default methods"]}
{"id": "C41", "title": "Sine and cosine variants are related", "statement": "process_dst2 equals process_dct2 with odd-indexed inputs negated and outputs reversed; process_dst3 equals process_dct3 with inputs reversed and odd-indexed outputs negated; process_dst4 equals process_dct4 with inputs reversed and odd outputs negated, on every planned instance in exact arithmetic.", "quantifier": "every length, every buffer", "why_tests_cant": "the code relies on these relations at every size.", "anchors": ["src/algorithm/type2and3_splitradix.rs: process_dst2_with_scratch, process_dst3_with_scratch", "src/algorithm/type4_convert_to_fft.rs"]}
{"id": "C42", "title": "One shared instance can be used from many threads", "statement": "Any interleaving of calls made by several threads on one shared instance, each thread with its own buffers, leaves every thread with the results of running its own calls alone.", "quantifier": "every schedule (calls of different threads overlap arbitrarily), every number of threads and calls, every program the threads run (each call may depend on all earlier results of its thread)", "why_tests_cant": "schedules cannot be enumerated by tests.", "anchors": ["src/lib.rs: Sync + Send bounds", "src/lib.rs: test_send_sync_impls"]}
{"id": "C43", "title": "Recursive planning is cheap and terminates", "statement": "plan_dct2 on a power of two 2^k terminates, and creates at most k new instances (the half and quarter sub-plans are shared through the cache) instead of exponentially many.", "quantifier": "every k >= 1, every history", "why_tests_cant": "growth in k is unbounded.", "anchors": ["src/plan.rs: plan_new_dct2, dct23_cache"]}
{"id": "C44", "title": "Energy is preserved up to the documented scale", "statement": "For planned DCT4/DST4 of length n the sum of squares of the output equals n/2 times the sum of squares of the input; for DST1 the factor is (n+1)/2, for DST5/DCT8 it is (n+1/2)/2. For all sixteen transforms the same holds with the boundary samples weighted (Parseval).", "quantifier": "every n, every buffer", "why_tests_cant": "law over all inputs.", "anchors": ["src/lib.rs: Dct4, Dst4, Dst1, Dst5, Dct8"]}
{"id": "C45", "title": "Complex view of scratch is exact", "statement": "Viewing a scratch slice of 2m elements as m complex numbers and writing through it updates exactly the corresponding pairs of elements and nothing else.", "quantifier": "every slice length and content", "why_tests_cant": "pointer cast; tests check results only.", "anchors": ["src/array_utils.rs: into_complex_mut"]}
{"id": "C46", "title": "Degenerate lengths panic instead of misbehaving", "statement": "Where an instance of a degenerate length exists although its transform is not usable (plan_dct3(0)/plan_dst3(0), and a DCT1 built on an FFT of length 0, which reports length 1) every call with the sizes it asks for panics; it is never undefined behaviour. This holds in debug and release builds, where lengths minus one wrap around.", "quantifier": "every history, every scratch, every element type", "why_tests_cant": "tests start at length 1 or 2.", "anchors": ["src/algorithm/type2and3_convert_to_fft.rs: process_dct3_with_scratch, process_dst3_with_scratch", "src/algorithm/type1_convert_to_fft.rs: Dct1ConvertToFft"]}
{"id": "C47", "title": "Split radix over scratch-hungry inner instances always panics", "statement": "If the half-length inner instance of a Type2And3SplitRadix requires more scratch than the outer length, the constructor accepts it but every valid call of process_dct2, process_dct3, process_dst2 and process_dst3 (with scratch) panics in the size check of the inner instance. The same holds if the quarter-length instance requires more scratch than the outer length, and the half-length instance does not and never panics.", "quantifier": "every inner instance that checks its sizes, every buffer and scratch", "why_tests_cant": "needs an inner instance no test uses (for example one converting to an FFT).", "anchors": ["src/algorithm/type2and3_splitradix.rs: new, process_dct2_with_scratch, process_dct3_with_scratch, process_dst2_with_scratch, process_dst3_with_scratch"]}
{"id": "C48", "title": "Exact effect of stale scratch on DST1, DST6 and DST7", "statement": "process_dst1/6/7_with_scratch of a planned instance depends on scratch contents exactly from length 25 (DST1) and 45 (DST6, DST7) on; with scratch contents g the result of DST1 is off by (g[1] - (-1)^k g[2n+3])/2 and that of DST7 by g[1]/2 in every output.", "quantifier": "every history, every length, every buffer, every scratch content", "why_tests_cant": "tests zero the scratch.", "anchors": ["src/algorithm/type1_convert_to_fft.rs: Dst1ConvertToFft", "src/algorithm/type6and7_convert_to_fft.rs: Dst6And7ConvertToFft", "src/plan.rs"]}
{"id": "C49", "title": "Which window a planned MDCT applies", "statement": "An instance returned by plan_mdct(n, w) applies the window of the first plan_mdct call for length n in the planner's history that did not panic (w itself if there was none).", "quantifier": "every history, every n, every window function", "why_tests_cant": "tests use a fresh planner per window.", "anchors": ["src/plan.rs: plan_mdct, mdct_cache"]}
{"id": "C50", "title": "Which rejected calls have modified the buffer", "statement": "A planned DST2/DST3 instance changes the caller's buffer before rejecting wrong sizes exactly when its length n is a power of two of at least 32: DST2 has then negated every odd-indexed element among the first n, DST3 has reversed the buffer, and scratch is untouched, whatever is wrong about the sizes. Every other planned method leaves all buffers untouched when it rejects a call.", "quantifier": "every history, every transform, every length, every wrong size", "why_tests_cant": "needs the state at the panic point.", "anchors": ["src/algorithm/type2and3_splitradix.rs: process_dst2_with_scratch, process_dst3_with_scratch", "src/plan.rs: plan_new_dct2"]}
{"id": "C51", "title": "Every planned transform is accurate in floating point", "statement": "In floating-point arithmetic without overflow and underflow, a planned instance returns a buffer whose Euclidean distance from the exact transform of the input is at most eps times the norm of the exact transform; eps is an explicit expression in the unit roundoff, the error of f64 sin/cos and the error of the FFT used, of first order in each, which does not grow with the length for FFT-based instances beyond the FFT's own error. Scratch handed in by the caller must be zeroed for the DST1/DST6/DST7 instances of C30. An all-zero buffer is transformed to an all-zero buffer.", "quantifier": "every transform, every history, every length, every input buffer, every rounding behaviour within the standard model", "why_tests_cant": "tests compare a few random buffers of small lengths with a loose absolute tolerance; the worst input and rounding pattern cannot be found by sampling.", "anchors": ["src/plan.rs", "src/algorithm/*", "src/twiddles.rs"]}
{"id": "C52", "title": "Power-of-two transforms lose at most a constant per doubling", "statement": "A planned DCT2, DCT3, DST2 or DST3 of 2^j points (j >= 1), DCT4 or DST4 of 2^j points (j >= 3), has relative error at most j*2^-19 in f32 and j*2^-44 in f64 (j <= 1000, no overflow or underflow, sin/cos accurate to 2^-53), whatever the FFT library does.", "quantifier": "every such transform, every j, every history, every input buffer", "why_tests_cant": "as C51; error growth with the length needs an induction over the split-radix recursion.", "anchors": ["src/algorithm/type2and3_splitradix.rs", "src/algorithm/type2and3_butterflies.rs", "src/algorithm/type4_convert_to_type3.rs", "src/plan.rs"]}
{"id": "C53", "title": "Round trips in floating point", "statement": "Running a planned transform and then a planned inverse (of any planner) returns the input times the scale of C17-C20 up to a relative error which is the two errors of C51 compounded.", "quantifier": "every transform, every length, every pair of histories, every input buffer", "why_tests_cant": "as C51; the error of the first transform is amplified by the second one in a way that depends on the data.", "anchors": ["src/plan.rs", "src/algorithm/*"]}
{"id": "C54", "title": "The MDCT is accurate in floating point", "statement": "In floating-point arithmetic without overflow and underflow, a planned MDCT of length n whose window values are within gamma*M of the window meant (of size at most M) returns coefficients whose Euclidean distance from the exact MDCT with the window meant is at most sqrt(n)*M*eta times the norm of the 2n inputs, eta compounding two roundings, the window error and the error of the inner DCT4 (C51).", "quantifier": "every even n, every history, every window, every input, every rounding behaviour within the standard model", "why_tests_cant": "tests compare random buffers of small lengths in f32 with a loose tolerance.", "anchors": ["src/mdct/mdct_via_dct4.rs:process_mdct_with_scratch", "src/plan.rs:plan_mdct"]}
{"id": "C55", "title": "The IMDCT accumulates accurately in floating point", "statement": "Under the conditions of C54, process_imdct adds the exact windowed IMDCT of its input to the 2n outputs with an error, in the Euclidean norm, of at most u times the norm of what the outputs contained before plus sqrt(n)*M*eta times the norm of the input.", "quantifier": "every even n, every history, every window, every input, every previous content of the outputs", "why_tests_cant": "as C54.", "anchors": ["src/mdct/mdct_via_dct4.rs:process_imdct_with_scratch"]}
{"id": "C56", "title": "The built-in windows are accurate", "statement": "Every entry of each built-in window differs from the sine, Vorbis or flat window it stands for, scaled by sqrt(4/len) or sqrt(2/len) for the invertible variants, by at most a small multiple of the rounding units; window_fn::one is exact.", "quantifier": "every length >= 1, every entry, every rounding behaviour within the standard model", "why_tests_cant": "tests check two of the windows up to length 38.", "anchors": ["src/mdct/window_fn.rs"]}
{"id": "C57", "title": "Overlapped MDCT/IMDCT reconstructs the signal in floating point", "statement": "Running the overlapped MDCT/IMDCT chain with a planned instance, reusing all buffers, every interior block comes out as gain times the block up to an error proportional to the norm of the two block pairs that overlap in it; the factor is an explicit expression of first order in the rounding units and independent of the number of blocks: errors do not accumulate along the signal.", "quantifier": "every even n, every history, every number of blocks, every signal, every window that approximates a symmetric Princen-Bradley window, in particular the six built-in ones", "why_tests_cant": "no test runs more than a few blocks; stale-buffer and accumulation effects grow with the signal.", "anchors": ["src/mdct/mdct_via_dct4.rs", "src/mdct/window_fn.rs", "src/plan.rs:plan_mdct"]}
{"id": "C58", "title": "The directly summed MDCT and the size of usize", "statement": "MdctNaive::process_mdct behaves the same whatever the size of usize as long as n/2 + (n-1)(n+1) is a value of usize: even n below 65536 on 32-bit targets, below 2^32 on 64-bit targets. Above that bound a build with overflow checks panics on every call with correct sizes, and a build without them computes the MDCT if and only if 4n divides the number of values of usize (so on 32-bit targets length 131072 is right and length 98304 is wrong).", "quantifier": "every even n >= 2 for which the twiddle table fits into memory, every size of usize, both overflow modes, every window (non-zero in its first two entries for the 'only if'), every input, every buffer content", "why_tests_cant": "the failure starts at length 65536 on 32-bit targets only; the claim ranges over every length and every input.", "anchors": ["src/mdct/mdct_naive.rs:process_mdct_with_scratch"]}
{"id": "C59", "title": "No undefined behaviour, whatever safe code does", "statement": "Although the crate uses unchecked indexing inside safe methods, no sequence of safe calls causes an out-of-bounds access: every method of every instance built with the crate's constructors, called with slices of any sizes, returns with slices of the same lengths or panics. This holds even if the FFT or the inner transform instances passed to the constructors are the caller's own implementations that compute nonsense, panic, change their behaviour from call to call, or lie about their length and scratch length, and it does not depend on the overflow checks of a debug build.", "quantifier": "every instance obtained from the public constructors or a planner, nested to any depth; every implementation of the inner traits and of Fft that is itself free of undefined behaviour; every buffer and scratch size and content, every length including 0 and 1; every element type", "why_tests_cant": "it ranges over adversarial trait implementations, all nesting depths and all slice sizes, and an out-of-bounds unchecked access need not be visible in a test.", "anchors": ["src/algorithm/type2and3_splitradix.rs", "src/algorithm/type2and3_butterflies.rs", "src/algorithm/type4_convert_to_type3.rs", "src/mdct/mdct_via_dct4.rs", "src/common.rs:validate_buffers"]}
{"id": "C60", "title": "No infinities and no NaN for inputs within a stated range", "statement": "In IEEE arithmetic with overflow and gradual underflow, a planned transform of inputs of magnitude at most B returns finite numbers only, each within a stated absolute error of the textbook value, provided gain * B leaves room for a stated number of roundings below the largest finite number. Gain and number of roundings are explicit functions of kind and length. For types 2, 3 and 4 and lengths 2^j the gain is at most 2^(j + j/2), whatever the FFT library does: in f32, up to length 2^30, inputs up to 2^80 are safe, in f64 inputs up to 2^900. Scratch contents do not matter, even NaN (except for DST1 from length 25 and DST6/7 from length 45, where scratch must be zeroed). Without the bound finite inputs can give infinite outputs.", "quantifier": "every kind, every length from 1 to 2^60, every input within the bound, subnormal numbers included, every scratch content, every planner history, every arithmetic that meets the IEEE axioms, every FFT that meets the contract", "why_tests_cant": "it ranges over all inputs of a continuous range and all lengths; the worst case of an intermediate result is attained by inputs no test enumerates.", "anchors": ["src/plan.rs", "src/algorithm/type2and3_splitradix.rs", "src/algorithm/type2and3_butterflies.rs", "src/algorithm/type4_convert_to_type3.rs", "src/algorithm/*_convert_to_fft.rs", "src/algorithm/*_naive.rs", "src/twiddles.rs"]}
{"id": "C61", "title": "No infinities and no NaN in MDCT, IMDCT and overlapped reconstruction", "statement": "In IEEE arithmetic with overflow and gradual underflow, a planned MDCT or IMDCT of inputs of magnitude at most B returns finite numbers only, each within a stated absolute error of the textbook value, provided gain * B leaves room for a stated number of roundings below the largest finite number; so do all interior blocks of a signal of any number of blocks passed through MDCT, IMDCT and overlapping, which come out as the signal times the gain of the window. The entries of the six built-in windows are finite and accurate. For block lengths 2^j, 3 <= j <= 20, whatever the FFT library does, samples up to 2^60 are safe in f32 and samples up to 2^900 in f64. Contents of scratch and of the MDCT's output buffer do not matter, even NaN.", "quantifier": "every even length up to 2^60, every input within the bound, every window function that is accurate and at most 1, every number of blocks, every content of the reused buffers, every planner history, every arithmetic that meets the IEEE axioms, every FFT that meets the contract", "why_tests_cant": "it ranges over all inputs of a continuous range, all lengths and all numbers of blocks.", "anchors": ["src/mdct/mdct_via_dct4.rs", "src/mdct/window_fn.rs", "src/plan.rs", "src/algorithm/type4_convert_to_type3.rs"]}
{"id": "C62", "title": "How much scratch space planned instances ask for", "statement": "get_scratch_len() of the instance a planner returns is a stated function of transform, length and get_inplace_scratch_len() of the FFT library's instance of the length used: 0 for types 2/3 of length 2, 3, 4, 8, 16, the length itself for all other powers of two from 32 on (types 2, 3, 4), for directly summed instances and for type 4 when the inner instance needs no more, and room for the complex FFT buffer and the FFT's scratch otherwise; a planned MDCT asks for n more than the DCT4 of length n. A call returns exactly when the buffer has the instance's length and scratch has at least that many elements. If the FFT library's scratch is linear in the length, so is every instance's: at most 4(c+1)(n+1) elements.", "quantifier": "every transform, every length, every planner history, every FFT library (for the exact acceptance: every one that returns on valid calls), every buffer and scratch", "why_tests_cant": "a caller that allocates scratch once for many lengths relies on it for all lengths, and the value depends on what the FFT library returns.", "anchors": ["src/plan.rs", "src/algorithm/*.rs: get_scratch_len", "src/mdct/mdct_via_dct4.rs: get_scratch_len", "src/common.rs: RequiredScratch"]}
{"id": "C63", "title": "Exact symmetries: negating or rescaling the input does exactly that to the output", "statement": "If a map of numbers commutes with the operations applied to data (sums, differences, negation, products with constants), then applying it to all numbers of buffer and scratch before a call has exactly the effect of applying it to the result: the same outcome (return, or the same panic) and, bit for bit, the mapped contents. In floating-point arithmetic without overflow and underflow negation is such a map, and so is multiplication by any power of two (overflow, underflow and the sign of zero: C72). So an instance never prefers one sign, and normalising a signal by a power of two before or after a transform makes no difference, not even in the last bit.", "quantifier": "every transform and every MDCT, built by the constructors or planned after any history, every length, every contents and sizes of the buffers, every number type and symmetry; an FFT used inside must have the symmetry (no condition for lengths that use none)", "why_tests_cant": "it is a statement about all inputs and all lengths, down to the last bit.", "anchors": ["src/algorithm/*.rs", "src/mdct/*.rs", "src/plan.rs", "src/common.rs: DctNum"]}
{"id": "C64", "title": "Every output is one fixed linear formula of the inputs, the same for every number type", "statement": "For every transform and length there is a list of formulas, one per output, built from the inputs by additions, subtractions, negations and multiplications with constants only, such that every planned instance of that length delivers their values in its own arithmetic: the same sequence of operations in f32, f64 and any other DctNum type, for every input, every contents of scratch (of zeroed scratch where C30 has its exception) and every planner history. The same for MDCT and IMDCT, whose formulas moreover involve the entries of the window. So no branch depends on data, no two inputs are ever multiplied with each other, and whatever holds of the formulas holds of every call.", "quantifier": "every transform, every length, every number type, every planner history, every buffer and scratch; an FFT used inside must evaluate fixed formulas too (no condition for lengths that use none)", "why_tests_cant": "tests sample inputs of one type; that no input takes a different path is a statement about all of them.", "anchors": ["src/algorithm/*.rs", "src/mdct/mdct_via_dct4.rs", "src/plan.rs", "src/common.rs: DctNum"]}
{"id": "C65", "title": "Which FFT a planned instance depends on", "statement": "A planned instance depends on the FFT library only through its FFT of one stated length (2(n-1) for DCT1 from n=10 on, 2(n+1) for DST1 from n=25 on, n for types 2 and 3 of length 1 and of lengths that are no power of two, n for odd and the choice for n/2 for even type 4, 2n+1 for DST6/DST7 from n=45 on). Two FFT libraries that agree there yield instances with the same scratch length and the same behaviour on every call; types 2 and 3 of a power of two from 2 on, type 4 of a power of two, short transforms of types 1, 6 and 7 and the remaining types do not depend on the FFT library at all.", "quantifier": "every transform, every length, every pair of FFT libraries, every pair of planner histories, every buffer and scratch", "why_tests_cant": "it compares all FFT libraries on all inputs.", "anchors": ["src/plan.rs: DctPlanner", "src/algorithm/*.rs"]}
{"id": "C66", "title": "Absurd lengths: debug builds panic, release builds may return an instance of another length", "statement": "Constructors and planner compute sizes such as 2(n-1) and 4n in usize. For every length that a buffer can have at all, in debug and release builds, and for every length in debug builds, whatever the planner returns after any history is an instance of the requested length, and the same one as if usize were unbounded (so that all other properties hold of it); for lengths whose tables can be allocated it does return it. Release builds silently wrap around for larger lengths: types 1, 5, 6, 7 and 8 of both DCT and DST then yield instances of another length (an exact formula is given; plan_dct1(2^63+6) has length 6 on a 64-bit machine), as do Type2And3Naive::new, Type4Naive::new and MdctNaive::new; planned types 2, 3 and 4 never do, nor does any planned transform below 2^62.", "quantifier": "every word size that is a multiple of 4 and at least eight times the largest Vec length, debug and release builds, every transform, every length, every planner history including panicking calls", "why_tests_cant": "it concerns all values of usize in two kinds of builds, and the offending lengths cannot be run through a transform.", "anchors": ["src/plan.rs: DctPlanner", "src/algorithm/*.rs: new", "src/mdct/mdct_naive.rs: MdctNaive::new", "src/mdct/mdct_via_dct4.rs: MdctViaDct4::new"]}
{"id": "C67", "title": "Accuracy of instances built with the public constructors, and of instances composed by the user", "statement": "Every transform of every instance built with the public constructors, however they are nested (a split radix instance of a naive and an FFT-based one, say), approximates the textbook definition in floating-point arithmetic with a relative error bounded by a formula in the unit roundoff, the length and the accuracy of the FFTs; inverse pairs return the input times the documented constant up to the two errors; MDCT instances, MdctNaive included, approximate MDCT and IMDCT, and overlapped blocks are reconstructed. If inner instances of split radix, even type 4 or MDCT structs are implementations of the user's own, it is enough that these have relative error eps: split radix adds one step to eps, type 4 and MDCT have stated bounds.", "quantifier": "every combination of public constructors, every length, every input, every rounding arithmetic, every foreign implementation of the inner traits that meets the accuracy contract", "why_tests_cant": "the bounds concern all inputs, all nestings and all foreign implementations; tests compare a few vectors with a fixed tolerance.", "anchors": ["src/algorithm/*.rs: new", "src/mdct/mdct_naive.rs: MdctNaive", "src/mdct/mdct_via_dct4.rs: MdctViaDct4", "src/lib.rs: TransformType2And3, Dct4"]}
{"id": "C68", "title": "Index arithmetic of the methods never leaves usize", "statement": "The process methods compute indices, strides and lengths in usize. On machines where a buffer takes less than an eighth of the address space (64-bit, and 32-bit with numbers of 4 bytes or more), in debug and in release builds, every method of every instance that the planner returns for a length that a buffer can have, and of every instance built with the public constructors from such lengths and usable FFTs, does on every call exactly what it does if usize is unbounded: no overflow panic, no wrapped index; rejected calls panic as documented and not with an overflow. Conversely whatever is planned with unbounded usize is planned on the machine. MdctNaive needs that the square of its length is a value of usize (C58). With an FFT of length 0 Dst1ConvertToFft::new returns an instance of length usize::MAX in release builds.", "quantifier": "every word size and largest Vec length in the stated proportion, debug and release builds, every transform, every instance, every length of at least 1, every buffer and scratch of any size", "why_tests_cant": "tests run in one build on one target and with short buffers; the claim concerns lengths up to the largest that can be allocated.", "anchors": ["src/algorithm/*.rs: process_*", "src/mdct/mdct_naive.rs: MdctNaive", "src/plan.rs: DctPlanner"]}
{"id": "C69", "title": "Infinities and NaN never go unnoticed", "statement": "If a sample is infinite or NaN, then after a call of any transform so is every output in whose textbook formula the sample has a coefficient other than zero; there is always at least one, so finite outputs mean that all samples were finite. For type 4 it is all outputs. If a sample or an entry of the window of an MDCT is infinite or NaN, so are all outputs, even those in which the window has a zero; an infinite or NaN IMDCT input spoils all outputs, an infinite or NaN entry of the window or of the output buffers the output it belongs to. What is in scratch does not matter.", "quantifier": "every planned instance after every planner history, every length, every input and scratch, every number type in which a set of values is absorbing for sums, differences, products and negation (the non-finite values of f32, f64 and every other binary format), every FFT that computes formulas which are the DFT in exact arithmetic", "why_tests_cant": "a test has finite samples, or a NaN at one position of one length; the claim concerns all positions, outputs and lengths, including algorithms that skip multiplications by zero or reuse partial sums.", "anchors": ["src/algorithm/*.rs: process_*", "src/mdct/mdct_via_dct4.rs: process_mdct_with_scratch, process_imdct_with_scratch", "src/plan.rs: DctPlanner"]}
{"id": "C70", "title": "An output that is finite is accurate, however large the inputs", "statement": "In IEEE arithmetic, for finite inputs of any magnitude: the call returns, and every output that is finite differs from the textbook value by at most the error of a stated number of roundings of a stated multiple of the largest input, so an overflow inside the computation never shows as a finite wrong number. The same holds for MDCT, IMDCT (added to finite output buffers) and for the interior blocks of overlapped MDCT/IMDCT of a signal of any length.", "quantifier": "every binary format with at most the precision of f64 or whose tables are as accurate as stated (f32, f64), every planned instance after every planner history, every length up to 2^60, all finite inputs, any scratch (zeroed scratch for the kinds of C30), every FFT that evaluates formulas which are accurate when nothing overflows; powers of two of types 2 to 4: any FFT", "why_tests_cant": "which intermediate results overflow depends on the inputs, and where an infinity meets a zero, another infinity or a butterfly differs per algorithm; tests try none of it.", "anchors": ["src/algorithm/*.rs: process_*", "src/mdct/mdct_via_dct4.rs: process_mdct_with_scratch, process_imdct_with_scratch", "src/plan.rs: DctPlanner"]}
{"id": "C71", "title": "Window functions that panic or have side effects", "statement": "plan_mdct and the MDCT constructors call the window function at most once, with twice the length, and only if the length is even and (plan_mdct) no instance of that length was returned before. If the window function panics, that panic reaches the caller; if it returns a vector of another length the call panics; otherwise the instance has exactly the window returned. A planner that survives such a panic is as good as new: later calls, also with the same length, behave as if the call had not happened, and an instance once returned is returned for ever, the window functions of later calls not being called.", "quantifier": "every history of planner calls with arbitrary closures as window functions, every length, every closure (any panics, any effect on the world outside the planner), every number type", "why_tests_cant": "a panic at one point of one history can be tested; that the caches are consistent after a panic at every point of every history, whatever the closure did, cannot", "anchors": ["src/plan.rs: DctPlanner::plan_mdct, plan_new_mdct", "src/mdct/mdct_via_dct4.rs: MdctViaDct4::new", "src/mdct/mdct_naive.rs: MdctNaive::new"]}
{"id": "C72", "title": "In IEEE arithmetic signs of zeros influence only signs of zeros, and negated inputs give negated outputs", "statement": "Two calls of a method of an instance, on buffers and scratch that agree entry by entry except that +0 and -0 may be exchanged, end alike: both return or both panic with the same message, and what they leave in buffer and scratch agrees again, bit for bit except for signs of zeros. The same holds with buffers and scratch of which one is the negative of the other: the results are negatives of each other, overflow to infinity, NaN and underflow included, except that a zero may have the same sign in both. That exception is real: a DCT2 of two equal numbers ends with +0, and so does the DCT2 of their negatives. More generally every relation preserved by the operations on data (sums, differences, negation, products with constants) is preserved by every call.", "quantifier": "every transform, MDCT and IMDCT, built by the constructors or planned after any history, every length, every pair of related buffers and scratch of any sizes, with infinities, NaN and subnormal numbers among the entries, every binary IEEE 754 format; an FFT used inside must preserve the relation (no condition for lengths that use none)", "why_tests_cant": "it is a statement about all inputs and all lengths, down to the last bit, and about values (signed zeros, infinities) that tests rarely combine.", "anchors": ["src/algorithm/*.rs", "src/mdct/*.rs", "src/plan.rs", "src/common.rs: DctNum"]}
{"id": "C73", "title": "No infinities or NaN from instances built by hand, and a contract under which composed instances stay finite", "statement": "In IEEE arithmetic, if the inputs are finite and leave a stated amount of room below the largest number, then every instance that can be built with the public constructors, in any combination they accept, returns finite outputs within a stated number of roundings of the textbook values; for the kinds that read scratch contents this holds on zeroed scratch, for the others on any scratch contents, NaN included. An instance implementing the crate's traits elsewhere may be passed as inner instance: if its DCT2/DCT3 (DCT3/DST3, DCT4) stay finite and accurate within stated gains, then so do the split radix (even type 4, MDCT) instance built from it, with gains stated in terms of the inner ones, and MDCT followed by overlapped IMDCT reconstructs. The crate's own instances meet this contract.", "quantifier": "every IEEE-like arithmetic, every tree of constructor calls, every length from 1 to 2^60, every FFT within the range contract, every user-supplied inner instance within the contract, all finite inputs with enough room", "why_tests_cant": "the trees of constructor calls, inner instances and input magnitudes are unbounded", "anchors": ["src/algorithm/type2and3_splitradix.rs: Type2And3SplitRadix::new, process_dct2_with_scratch", "src/algorithm/type4_convert_to_type3.rs: Type4ConvertToType3Even::new", "src/mdct/mdct_via_dct4.rs: MdctViaDct4::new", "src/mdct/mdct_naive.rs: MdctNaive::new", "src/algorithm/*.rs: public constructors"]}
{"id": "C74", "title": "Formulas, infinite samples and overflow in instances built by hand", "statement": "For every instance that can be built with the public constructors, in any combination they accept: each output is the value of one fixed formula of the inputs (additions, subtractions, negations and multiplications with constants), the same for all inputs and, unless the instance is of a kind that reads scratch, all scratch contents; if a sample is infinite or NaN then so is every output into which the textbook transform takes it with a non-zero coefficient, so at least one output, and for type 4 and MDCT all of them; and for finite inputs of any magnitude every output that is finite is accurate within a stated number of roundings of a stated multiple of the largest input. MDCT, IMDCT and overlapped reconstruction are included.", "quantifier": "every tree of constructor calls, every number type (formulas), every IEEE format (infinite samples, overflow), every length, every FFT that evaluates formulas, all inputs and scratch contents", "why_tests_cant": "trees of constructor calls, lengths and inputs are unbounded, and the formulas are not observable by running", "anchors": ["src/algorithm/*.rs: public constructors and process methods", "src/mdct/mdct_naive.rs: MdctNaive", "src/mdct/mdct_via_dct4.rs: MdctViaDct4"]}
{"id": "C75", "title": "Documented running times", "statement": "Counting arithmetic operations on elements and accesses to elements of buffers, scratch and tables, and a given number of steps per FFT call: the naive instances take a quadratic number of steps (between n^2 for calls that return and 4n^2+6n+6; MDCT up to 12n^2+10n), the butterflies at most a fixed number, the FFT conversions what the FFT takes plus 30n+30, split radix what one half-size and two quarter-size transforms take plus a linear number, even-length type 4 what an inner DCT3 and an inner DST3 take plus a linear number, the MDCT via DCT4 what the DCT4 takes plus 22n. Hence if rustfft is O(n log n), then so is every planned DCT1-4, DST1-4, DST6, DST7, MDCT and IMDCT; planned types 2 and 3 of powers of two are O(n log n) whatever rustfft does; planned DCT5-8, DST5 and DST8 are quadratic. Bounds hold for every buffer of the instance's length, also if the call panics.", "quantifier": "every length, every instance the public constructors or the planner (after any history) produce, every cost of FFT calls, every buffer and scratch contents, every number type", "why_tests_cant": "asymptotic bounds over all lengths cannot be established by timing finitely many of them", "anchors": ["src/algorithm/type1_naive.rs:9,87", "src/algorithm/type2and3_naive.rs:9", "src/algorithm/type4_naive.rs:9", "src/algorithm/type5_naive.rs:9,82", "src/algorithm/type6and7_naive.rs:7,110", "src/algorithm/type8_naive.rs:7,74", "src/mdct/mdct_naive.rs:9", "src/algorithm/type2and3_convert_to_fft.rs:13", "src/algorithm/type6and7_convert_to_fft.rs:13", "src/algorithm/type4_convert_to_type3.rs:11", "src/algorithm/type2and3_splitradix.rs: Type2And3SplitRadix", "src/plan.rs: DctPlanner"]}
{"id": "C76", "title": "Contract of the public unsafe butterfly methods", "statement": "The unsafe methods process_inplace_dct2, process_inplace_dct3, process_inplace_dst2 and process_inplace_dst3 of the butterflies of sizes 2, 3, 4, 8 and 16 need exactly one thing of their caller: a slice of at least the butterfly's size. Then they do not access anything out of bounds, do not panic, replace the first elements by what the safe method makes of them (over the reals: by the transform's formula) and leave all elements behind them alone. With a shorter slice every one of them accesses memory out of bounds.", "quantifier": "every butterfly and each of its four methods, every slice of any length and content, every number type", "why_tests_cant": "an out-of-bounds access need not be visible in a test, and slices of every length are concerned", "anchors": ["src/algorithm/type2and3_butterflies.rs:process_inplace_dct2", "src/algorithm/type2and3_butterflies.rs:process_inplace_dct3", "src/algorithm/type2and3_butterflies.rs:process_inplace_dst2", "src/algorithm/type2and3_butterflies.rs:process_inplace_dst3"]}
{"id": "C77", "title": "Different instances agree up to rounding, and small changes of the input stay small", "statement": "Whatever algorithm is behind two instances of the same transform and length (planned with different FFT libraries and after different histories, built by hand from naive, FFT-based or nested parts), in floating point their outputs for the same input differ, in the Euclidean norm, by at most the sum of their error bounds times the norm of the exact transform; likewise for MDCT and IMDCT of a planned and a hand-built instance. If two inputs differ by d, the outputs of an instance differ by at most gain * d and rounding errors, where the gain is an explicit function of kind and length (sqrt(n/2) for DCT3 and DCT4, sqrt(n) for DCT2).", "quantifier": "every transform, every pair of instances, every length, every pair of inputs, every rounding behaviour within the standard model", "why_tests_cant": "it compares all pairs of algorithms on all inputs; tests compare a few random buffers with a fixed tolerance", "anchors": ["src/plan.rs: DctPlanner", "src/algorithm/*.rs: new", "src/mdct/mdct_naive.rs: MdctNaive", "src/mdct/mdct_via_dct4.rs: MdctViaDct4"]}
{"id": "C78", "title": "A planner's memory is bounded by the distinct requests", "statement": "After any sequence of calls, including calls that panicked, a planner keeps only finitely many instances: at most log2(n)+2 for every distinct request (kind family, length n), and their tables and windows together hold at most 8n+2 numbers per distinct request (2n for DCT2/3 of any length, with all sub-plans). Repeating requests, or asking for DST2 after DCT2 and the like, adds nothing. The same bound holds for the number of instances ever created. Every single instance of length n of types 2, 3 and 4, planned or nested by hand from the public constructors, keeps at most 8n numbers together with all its inner instances (MDCT: 10n).", "quantifier": "every sequence of planner calls, every length, every window function", "why_tests_cant": "it is about the sum over all sub-plans of all histories; tests look at single results, not at what stays behind", "anchors": ["src/plan.rs: DctPlanner, *_cache, plan_*, plan_new_*", "src/algorithm/*.rs: new", "src/mdct/mdct_via_dct4.rs: MdctViaDct4::new"]}
{"id": "C79", "title": "Recursion is at most logarithmic in the length", "statement": "No length can exhaust the stack by recursion. Planning a DCT2 of length n (and all that goes through it) needs at most log2(n)+1 nested calls of the planner, whatever is in its caches. The calls of inner instances while processing are at most log2(n) levels deep for types 2 and 3, log2(n)+1 for type 4 and log2(n)+2 for the MDCT, for planned instances and for every nesting built by hand with the public constructors.", "quantifier": "every length, every state of the planner, every instance the public constructors can make", "why_tests_cant": "an overflow of the stack would show only at lengths no test allocates, or for nestings no test builds", "anchors": ["src/plan.rs: DctPlanner::plan_dct2, plan_new_dct2", "src/algorithm/type2and3_splitradix.rs: Type2And3SplitRadix", "src/algorithm/type4_convert_to_type3.rs: Type4ConvertToType3Even", "src/mdct/mdct_via_dct4.rs: MdctViaDct4"]}
{"id": "C80", "title": "Asking an instance for its length never overflows", "statement": "On 32- and 64-bit targets, in debug and release builds, len() (and so get_scratch_len()) of every instance that a constructor returned computes without overflow the length that it would have with unbounded integers, whatever usize was passed to the constructor and whatever the inner instances are. The one exception is Dst1Naive in release builds with a length no buffer can have: Dst1Naive::new(usize::MAX / 2) returns an instance with an empty table whose len() is usize::MAX.", "quantifier": "every struct, every constructor argument of type usize, every inner instance, every target and build mode", "why_tests_cant": "the critical lengths are far beyond what can be allocated, and tests run in one build mode on one target", "anchors": ["src/algorithm/type1_naive.rs: len", "src/algorithm/type5_naive.rs: len", "src/algorithm/type6and7_naive.rs: len", "src/algorithm/type8_naive.rs: len", "src/algorithm/type2and3_splitradix.rs: len", "src/algorithm/type4_convert_to_type3.rs: len"]}
{"id": "C81", "title": "Number types that cannot represent every constant", "statement": "For a number type whose from_f64 can return None, a constructor or a window function panics exactly if its arguments are invalid or one of the sines and cosines (scaled, for invertible windows) of its table cannot be converted; the list of these values is explicit. Otherwise it returns the same instance or window as for a type that converts everything: no table is ever left incomplete or filled with substitutes.", "quantifier": "every partial conversion, every constructor that fills a table and every window function, every length", "why_tests_cant": "tests use f32 and f64, whose conversion never fails", "anchors": ["src/twiddles.rs: single_twiddle, single_twiddle_re, single_twiddle_halfoffset", "src/algorithm/*.rs: new", "src/mdct/mdct_naive.rs: MdctNaive::new", "src/mdct/window_fn.rs"]}
{"id": "C82", "title": "The planner does not rely on the FFT planner being deterministic", "statement": "If the FFT planner has state, so that it returns different FFTs for the same length at different times and may panic, everything guaranteed of planned instances still holds, provided each FFT it returns meets its contract: every instance the DCT planner returns is one that it could have returned with a stateless FFT planner. A request asks the FFT planner at most once, for the length known in advance, and only then can it panic for a length from 2 on: the FFT planner's panic is passed on, and the DCT planner stays usable. An instance that was returned is returned again for ever by all requests for transforms it implements, without asking. The same holds for MDCT instances, with arbitrary window functions.", "quantifier": "every FFT planner (a function of the length and an arbitrary state), every property of FFTs it maintains, all histories of calls including panicking ones and arbitrary window functions, all kinds and lengths", "why_tests_cant": "tests use one FFT planner, which is deterministic and does not panic", "anchors": ["src/plan.rs: DctPlanner (fft_planner and all plan_* methods)"]}
{"id": "C83", "title": "What a panic inside an FFT leaves behind", "statement": "If an FFT panics in the middle of a transform, the panic reaches the caller and the caller's buffer still holds the input, unchanged; scratch holds what the FFT left in its two slices, and scratch beyond what was asked for is untouched. The only exception: DCT4 and DST4 of even length over an FFT that needs no scratch of its own use the caller's buffer as scratch, so there the input is lost and the buffer holds what the FFT left in its buffer. An IMDCT interrupted in this way has added nothing to its two output buffers; an MDCT leaves all slices with their lengths and scratch beyond what was asked for untouched. Planned instances whose length needs no FFT never panic in a valid call, whatever FFTs the planner would have used.", "quantifier": "every FFT that may panic on any input, every content it may leave in its slices at that point, all methods of all instances the constructors make from an FFT, all planned instances and MDCT instances after any history, all valid calls", "why_tests_cant": "the panic is a crash point inside a dependency; tests use an FFT that does not panic, and could sample only some inputs and lengths", "anchors": ["src/algorithm/type1_convert_to_fft.rs", "src/algorithm/type2and3_convert_to_fft.rs", "src/algorithm/type4_convert_to_fft.rs", "src/algorithm/type4_convert_to_type3.rs", "src/algorithm/type6and7_convert_to_fft.rs", "src/mdct/mdct_via_dct4.rs"]}
{"id": "C84", "title": "A planner survives panics at any point", "statement": "If planner calls panic at arbitrary points (while constructing an instance, for example because a constant cannot be converted or memory cannot be reserved; when storing it; in the FFT planner; in a window function) and the caller catches the panics and goes on using the planner, then nothing wrong is ever returned: an instance returned later could have been planned by a new planner without any panic, so it is safe and computes its transform. Earlier panics never make a request fail: a request for a length from 2 on returns unless there is a panic during that very request. Instances that were returned are returned again for ever, and such requests cannot panic. An MDCT instance has the window of this call or of an earlier call of the same length that returned: the window of a call that panicked, even after its window function had returned, is never used.", "quantifier": "every function, with state, that decides at which crash points there is a panic; every FFT planner with state; every history of planner calls with every mixture of requests, window functions and panics", "why_tests_cant": "crash points, schedules of panics and histories are unbounded; tests never interrupt the planner", "anchors": ["src/plan.rs: DctPlanner"]}
{"id": "C85", "title": "The message of a rejected call names the wrong size", "statement": "When a call panics because of a wrong size, the panic message tells the truth: it names the length of the buffer, expected and given, if that is wrong, and otherwise the length of scratch, required and given; for the MDCT methods it names the first of the three buffers that is wrong. The one exception is DST2 of a split radix instance (from the planner: lengths 32, 64, 128, ...) with too short a buffer, which panics with an index out of bounds instead.", "quantifier": "every method of every instance built with the public constructors and of every planned instance, every combination of sizes, every content", "why_tests_cant": "there is one message per pair of sizes; tests never provoke one", "anchors": ["src/common.rs: validate_buffer, validate_buffers, validate_buffers_mdct, dct_error_inplace, mdct_error_inplace", "src/algorithm/type2and3_splitradix.rs: process_dst2_with_scratch, process_dst3_with_scratch"]}
{"id": "C86", "title": "Overlapped MDCT with a different window for every block", "statement": "If every pair of neighbouring blocks is transformed and transformed back with instances of its own, which may have different windows for the two directions (window switching, biorthogonal windows), then every interior block x comes out as n/2 * ((v[n+i]*w[n+i] + v'[i]*w'[i])*x[i] + (v[n+i]*w[2n-1-i] - v'[i]*w'[n-1-i])*x[n-1-i]), where w, v are the windows of the first and w', v' those of the second pair it is in. That is c*n/2 times the block, for all blocks, exactly if the first bracket is c and the second 0. In particular switching between windows works if the halves that overlap are the halves of one symmetric Princen-Bradley window.", "quantifier": "every even n, every number of blocks, all contents, all windows, all instances the constructors can make, all contents of the reused buffers", "why_tests_cant": "the crate's tests use one window at a time, a few lengths and five blocks", "anchors": ["src/mdct/mod.rs: Mdct", "src/mdct/mdct_naive.rs: MdctNaive", "src/mdct/mdct_via_dct4.rs: MdctViaDct4"]}
{"id": "C87", "title": "The overlapped MDCT preserves energy and does not amplify quantisation errors", "statement": "With a symmetric window with the Princen-Bradley property with the constant c, let g = c*n/2. The energy of the coefficients of a signal is at most g times that of the signal, and equal to it if the signal begins and ends with a block of zeros. The energy of what the overlapped IMDCT makes of coefficients is g times that of the coefficients, and the energy of the difference between what it makes of two sequences of coefficients is g times that of the difference. So if the coefficients of a signal are changed in any way before they are transformed back, then the error of the interior blocks, compared with g times the signal, has at most g times the energy of the change; and the error of one block at most g times that of the change of the two coefficient vectors the block went into.", "quantifier": "every even n, every such window, every number of blocks, every signal, every change of the coefficients, every instance the constructors can make, every planned instance after every history, all contents of the reused buffers", "why_tests_cant": "signals, changes and numbers of blocks are unbounded; tests only transform back unchanged coefficients", "anchors": ["src/mdct/mod.rs: Mdct", "src/mdct/mdct_naive.rs: MdctNaive", "src/mdct/mdct_via_dct4.rs: MdctViaDct4", "src/plan.rs: plan_mdct"]}
{"id": "C88", "title": "Instances agree with the project's reference implementations", "statement": "In exact arithmetic every instance, built by hand or planned, returns exactly what the reference implementation of its transform in the project's test suite returns (reference_dct1 to reference_dst8, slow_mdct, slow_imdct; for DCT1 from length 2 on).", "quantifier": "all sixteen transforms, MDCT and IMDCT; every length, every real input, every instance, every planner history, every window", "why_tests_cant": "the test suite compares with the reference implementations for lengths below 20 and one random signal each", "anchors": ["tests/common/reference_impls.rs: reference_dct1, reference_dct2, reference_dct3, reference_dct4, reference_dct5, reference_dct6, reference_dct7, reference_dct8, reference_dst1, reference_dst2, reference_dst3, reference_dst4, reference_dst5, reference_dst6, reference_dst7, reference_dst8", "src/mdct/mdct_naive.rs: slow_mdct, slow_imdct"]}
{"id": "C89", "title": "Silence stays silent", "statement": "In IEEE arithmetic, with infinities, NaN, subnormal numbers and signed zeros, a transform or MDCT of zeros (of either sign) returns zeros only, not tiny numbers, infinities or NaN, whatever scratch and output buffer contain; and an IMDCT of zero coefficients leaves its two output buffers as they are, bit for bit except for signs of zeros, even if they contain infinities or NaN. (DST1 from length 25 and DST6/7 from length 45: on zeroed scratch.) For instances that use no FFT this holds without any condition, for lengths up to 2^28 in f32 and 2^50 in f64; for the others if the FFT gives negated outputs for negated inputs and stays finite. The window of an MDCT must be finite, as the built-in ones are.", "quantifier": "every kind of transform, MDCT and IMDCT, every instance the constructors can make, every planned instance after every history, every length up to 2^60 (given room for the gain, automatic in f32 and f64 for the lengths above), every choice of signs of the zeros, every content of scratch and output buffers", "why_tests_cant": "there are too many sign patterns and buffer contents; tests compare up to a tolerance, so that tiny nonzero outputs pass", "anchors": ["src/lib.rs: Dct1, Dct2, Dct3, Dct4, Dct5, Dct6, Dct7, Dct8, Dst1, Dst2, Dst3, Dst4, Dst5, Dst6, Dst7, Dst8", "src/mdct/mdct_naive.rs: process_mdct_with_scratch, process_imdct_with_scratch", "src/mdct/mdct_via_dct4.rs: process_mdct_with_scratch, process_imdct_with_scratch", "src/plan.rs: DctPlanner"]}
{"id": "C90", "title": "In floating point, instances agree with the reference implementations up to stated errors", "statement": "In floating-point arithmetic (unit roundoff v, error t of sin and cos, no overflow or underflow) each entry computed by the reference implementation of a transform of length n differs from the textbook transform by at most (1+v)^(n+3) (1 + t + nπ((1+v)^11/(1−v) − 1)) − 1 times the sum of the absolute values of the input; in f64, for n up to 2^20, by at most n 2^-47 times that sum. Likewise for slow_mdct and slow_imdct. Hence every instance, planned or built by hand, and the reference implementation, given the same numbers (the instance possibly in f32, the reference in f64), return results that differ in the Euclidean norm by at most the sum of their two error bounds: a comparison against the reference can fail only beyond that tolerance. reference_dct1 of a single number divides zero by zero and is excluded.", "quantifier": "every kind of transform, MDCT and IMDCT, every length, every input, every accurate FFT, every planned instance after every history, every instance the constructors can make, every number format meeting the rounding model", "why_tests_cant": "the project's tests compare instances with the reference on some random inputs and a fixed tolerance; whether the tolerance is justified for every length and input, and how far the reference itself is off, cannot be seen from them", "anchors": ["tests/common/reference_impls.rs: reference_dct1, reference_dct2, reference_dct3, reference_dct4, reference_dct5, reference_dct6, reference_dct7, reference_dct8, reference_dst1, reference_dst2, reference_dst3, reference_dst4, reference_dst5, reference_dst6, reference_dst7, reference_dst8", "src/mdct/mdct_naive.rs: slow_mdct, slow_imdct", "src/plan.rs: DctPlanner"]}
{"id": "C91", "title": "What a panic inside an inner instance leaves behind", "statement": "If an inner instance of a split radix instance panics (a type of the user, or an instance over an FFT that panics), the panic reaches the caller, both slices keep their lengths, and scratch beyond what was asked for is untouched. The caller's buffer served as scratch of the inner instances, so it is changed at most in as many leading elements as they ask for: behind them it holds the input of DCT2 and DCT3, the input of DST2 with every other sign changed, the input of DST3 in reverse order. If the inner instances ask for no scratch, the whole input of DCT2 and DCT3 is intact, that of DST2 and DST3 can be recovered. The same for DCT4 and DST4 of even length over such an instance, where the buffer is intact if the inner instance asks for more scratch than the buffer has. An interrupted IMDCT over it has added nothing to its outputs. All this holds for instances put together to any depth.", "quantifier": "every pair of inner instances that may panic in any call with any memory contents, every nesting depth, every length, every call, every element type", "why_tests_cant": "the tests use no inner instance that panics", "anchors": ["src/algorithm/type2and3_splitradix.rs: Type2And3SplitRadix", "src/algorithm/type4_convert_to_type3.rs: Type4ConvertToType3Even", "src/mdct/mdct_via_dct4.rs: MdctViaDct4"]}
{"id": "C92", "title": "A lossy codec with changing windows in floating point", "statement": "A client transforms every two neighbouring blocks of a signal with the MDCT, changes the coefficients in any way that keeps their number, transforms them back with the IMDCT and overlaps the results, with other instances and windows in every step, other windows for the way back, and reused buffers with any contents. In floating-point arithmetic no call panics. The coefficients differ from the exact MDCT by at most √n M η times the norm of the two blocks. Every interior block comes out as the exact combination of its four windows, that is, multiplied by c n / 2 if they fit together, up to n M N ((1+u)(1+η)² − 1) times the norms of the two pairs of blocks it belongs to, and √n N (1+η)(1+u) times the changes of the two coefficient vectors it went into; a quantiser that changes every coefficient by at most q changes a vector by at most √n q. M and N bound the windows, u is the unit roundoff, η the stated error of one MDCT. Rounding errors and changes of other blocks do not accumulate. Without changes this is the program of C86.", "quantifier": "every number of blocks, every signal, every change of coefficients, every sequence of windows, every instance the constructors can make over accurate FFTs, every planned instance after every history, every number format meeting the rounding model, every content of the reused buffers", "why_tests_cant": "the tests check single calls of MDCT and IMDCT on random data with a fixed tolerance; error propagation over any number of blocks, windows and changes cannot be enumerated", "anchors": ["src/mdct/mod.rs: Mdct", "src/mdct/mdct_naive.rs: MdctNaive", "src/mdct/mdct_via_dct4.rs: MdctViaDct4", "src/mdct/window_fn.rs: mp3, vorbis", "src/plan.rs: DctPlanner::plan_mdct"]}
{"id": "C93", "title": "Two-dimensional transforms by rows and columns", "statement": "A client transforms every row of an image with one instance and then every column with another. In exact arithmetic the result is the two-dimensional transform (for two DCT2s the double sum of JPEG), columns first gives the same, and transforming with the inverse kinds returns the image times the product of the two one-dimensional factors. One scratch slice of sufficient length shared by all calls, whatever it contains, gives the same result as the default methods, in every arithmetic, for all kinds that do not read stale scratch (C31). In floating-point arithmetic the result differs from the two-dimensional transform, in the Euclidean norm, by at most ((1+e)(1+d) − 1) times the gains of the two transforms times the norm of the image, where e and d are the one-dimensional errors of C51 or C67, and the round trip returns the image times the two factors with the error compounded in the same way. No call panics.", "quantifier": "every pair of kinds, every width and height, every image, every instance the constructors can make, every planned instance after every history, every content of the shared scratch, every number format meeting the rounding model", "why_tests_cant": "the tests contain no two-dimensional transforms; pairs of kinds, sizes, instances and images cannot be enumerated", "anchors": ["src/lib.rs: Dct1 … Dst8, RequiredScratch", "src/plan.rs: DctPlanner", "src/algorithm: all process methods"]}
{"id": "C94", "title": "Second differences, and solvers of Poisson and diffusion equations", "statement": "Each of the sixteen transforms belongs to one way of continuing a signal beyond its ends (mirrored at or half a step beyond the last sample, with or without a change of sign). Transforming the second difference of a signal so continued gives the transform of the signal with output u multiplied by 2 cos(f) − 2, where f is the frequency of output u. Hence a client that transforms a signal x, divides output u by a + b (2 cos(f) − 2) and by the factor of C17–C20 and C39, and transforms back with the inverse kind obtains y with a y + b Δy = x, whenever no divisor is zero (or the outputs with zero divisor vanish, and are left at zero); the solution is then unique. In particular implicit diffusion steps y − rΔy = x can be solved with every kind, Poisson's equation Δy = x with the twelve kinds without a constant wave, and with DCT2 and DCT3 if the samples of x add up to zero. The same on images, with any two kinds along rows and columns. Exact arithmetic.", "quantifier": "every kind and every pair of kinds, every length (width and height) from 2, every signal and image, every a, b, c, every instance the constructors can make, every planned instance after every history", "why_tests_cant": "the tests compare single transforms with reference formulas; that an instance, a frequency and a boundary condition belong together for every length, kind and signal is not tested at all", "anchors": ["src/lib.rs: Dct1 … Dst8 (documentation of the formulas)", "src/plan.rs: DctPlanner", "src/algorithm: all process methods"]}
{"id": "C95", "title": "Zero-phase filters by multiplication of coefficients", "statement": "Every signal of at least two samples can be continued over all integers with the two mirrors of a transform in exactly one way. A client that transforms the signal, multiplies output u by the frequency response of a symmetric FIR filter at the frequency of output u, divides by the factor of C17–C20 and C39 and transforms back with the inverse kind obtains exactly the samples of the filter applied to the signal so continued, whatever the number of taps, also when the filter is longer than the signal. Exact arithmetic.", "quantifier": "every kind, every length from 2, every signal, every number of taps and all coefficients, every instance the constructors can make, every planned instance after every history", "why_tests_cant": "the tests contain no filters; kinds, lengths, filters and signals cannot be enumerated", "anchors": ["src/lib.rs: Dct1 … Dst8 (documentation of the formulas)", "src/plan.rs: DctPlanner", "src/algorithm: all process methods"]}
{"id": "C96", "title": "Filters and solvers in floating point", "statement": "A client transforms a signal, multiplies every output by a multiplier and transforms back with the inverse kind, in floating-point arithmetic. No call panics, and the result differs from what exact arithmetic gives, in the Euclidean norm, by at most ((1+e)(1+d)(1+u)(1+g) − 1) b C s times the norm of the signal: e and d are the errors of the two transforms (C51, C67), u the unit roundoff, g the relative error of the multipliers and C their bound, s the factor of C17–C20 and C39, b at most 2 (the price of boundary samples). In particular an implicit diffusion step is solved with an error that does not depend on the size of the step, with every kind; and a symmetric FIR filter is applied with an error proportional to the sum of the absolute values of its coefficients. The same on images.", "quantifier": "every kind and pair of kinds, every length (width and height) from 2, every signal and image, all multipliers, every instance the constructors can make over accurate FFTs, every planned instance after every history, every number format meeting the rounding model", "why_tests_cant": "the tests check single calls on random data with a fixed tolerance; the propagation of errors through multipliers and the inverse transform for every kind and length is not tested", "anchors": ["src/lib.rs: Dct1 … Dst8", "src/plan.rs: DctPlanner", "src/algorithm: all process methods"]}
{"id": "C97", "title": "Chebyshev interpolation", "statement": "A client samples a function at the n Chebyshev points cos((j+1/2)π/n), transforms the samples with a DCT2, multiplies every output by 2/n and halves the first: these are the Chebyshev coefficients of a polynomial of degree below n that takes the sampled values, and it is the only such polynomial, so a polynomial of degree below n is recovered exactly. The same with a DCT1, the points cos(jπ/(n−1)), the factor 2/(n−1) and the first and last output halved. Conversely a DCT3 of Chebyshev coefficients, the first one doubled, returns the values of the series at the first set of points, and a DCT1, the first and last one doubled, the values at the second. Exact arithmetic.", "quantifier": "every length (from 1 with DCT2, any with DCT3, every length a DCT1 can have), all samples and all coefficients, every instance the constructors can make, every planned instance after every history", "why_tests_cant": "the tests compare transforms with each other on random data; that the documented formulas with these factors interpolate, at every length and for all data, is not tested", "anchors": ["src/lib.rs: Dct1, Dct2, Dct3 (documentation of the formulas)", "src/plan.rs: DctPlanner::plan_dct1, plan_dct2, plan_dct3", "src/algorithm: process_dct1, process_dct2, process_dct3"]}
{"id": "C98", "title": "Chebyshev interpolation in floating point", "statement": "A client computes Chebyshev coefficients as in C97 in floating-point arithmetic, with factors that carry a relative error g. No call panics, and everywhere between -1 and 1 the polynomial with the computed coefficients differs from the exact interpolating polynomial of the samples by at most 2 ((1+e)(1+u)(1+g) − 1) times the Euclidean norm of the samples with DCT2 at the points cos((j+1/2)π/n), and 3 times that expression with DCT1 at the points cos(jπ/(n−1)); e is the error of the transform (C51, C67), u the unit roundoff. The constants 2 and 3 do not depend on the length.", "quantifier": "every length (from 1 with DCT2, from 2 with DCT1), all samples, every point between -1 and 1, every instance the constructors can make over accurate FFTs, every planned instance after every history, every number format meeting the rounding model", "why_tests_cant": "the tests check single calls on random data with a fixed tolerance; a bound at every point of an interval for every length and all samples cannot be tested", "anchors": ["src/lib.rs: Dct1, Dct2", "src/plan.rs: DctPlanner::plan_dct1, plan_dct2", "src/algorithm: process_dct1, process_dct2"]}
