import Verif.Cov.Model

/-!
# Covariance prediction equations — EKF/covariance.cpp:265-821

Transcribed by tools/gen_cov.py, one definition per C++ assignment, in the order of the source.
`nx_i_j` is the value assigned to `nextP(i,j)` before process noise is added.
-/

namespace Ecl.Cov

/-- the scalars read by the equations, EKF/covariance.cpp:104-126, 227-260 -/
structure PredIn (K : Type*) where
  q0 : K
  q1 : K
  q2 : K
  q3 : K
  dax : K
  day : K
  daz : K
  dvx : K
  dvy : K
  dvz : K
  dax_b : K
  day_b : K
  daz_b : K
  dvx_b : K
  dvy_b : K
  dvz_b : K
  daxVar : K
  dayVar : K
  dazVar : K
  dvxVar : K
  dvyVar : K
  dvzVar : K
  dt : K

section
variable {K : Type*} [Field K]

/-- EKF/covariance.cpp:265 -/
def PS0 (P : Mat K) (x : PredIn K) : K := x.q1 ^ 2

/-- EKF/covariance.cpp:266 -/
def PS1 (P : Mat K) (x : PredIn K) : K := (1 / 4) * x.daxVar

/-- EKF/covariance.cpp:267 -/
def PS2 (P : Mat K) (x : PredIn K) : K := x.q2 ^ 2

/-- EKF/covariance.cpp:268 -/
def PS3 (P : Mat K) (x : PredIn K) : K := (1 / 4) * x.dayVar

/-- EKF/covariance.cpp:269 -/
def PS4 (P : Mat K) (x : PredIn K) : K := x.q3 ^ 2

/-- EKF/covariance.cpp:270 -/
def PS5 (P : Mat K) (x : PredIn K) : K := (1 / 4) * x.dazVar

/-- EKF/covariance.cpp:271 -/
def PS6 (P : Mat K) (x : PredIn K) : K := (1 / 2) * x.q1

/-- EKF/covariance.cpp:272 -/
def PS7 (P : Mat K) (x : PredIn K) : K := (1 / 2) * x.q2

/-- EKF/covariance.cpp:273 -/
def PS8 (P : Mat K) (x : PredIn K) : K := P 10 11 * (PS7 P x)

/-- EKF/covariance.cpp:274 -/
def PS9 (P : Mat K) (x : PredIn K) : K := (1 / 2) * x.q3

/-- EKF/covariance.cpp:275 -/
def PS10 (P : Mat K) (x : PredIn K) : K := P 10 12 * (PS9 P x)

/-- EKF/covariance.cpp:276 -/
def PS11 (P : Mat K) (x : PredIn K) : K := (1 / 2) * x.dax - (1 / 2) * x.dax_b

/-- EKF/covariance.cpp:277 -/
def PS12 (P : Mat K) (x : PredIn K) : K := (1 / 2) * x.day - (1 / 2) * x.day_b

/-- EKF/covariance.cpp:278 -/
def PS13 (P : Mat K) (x : PredIn K) : K := (1 / 2) * x.daz - (1 / 2) * x.daz_b

/-- EKF/covariance.cpp:279 -/
def PS14 (P : Mat K) (x : PredIn K) : K := P 0 10 - P 1 10 * (PS11 P x) + P 10 10 * (PS6 P x) - P 2 10 * (PS12 P x) - P 3 10 * (PS13 P x) + (PS10 P x) + (PS8 P x)

/-- EKF/covariance.cpp:280 -/
def PS15 (P : Mat K) (x : PredIn K) : K := P 10 11 * (PS6 P x)

/-- EKF/covariance.cpp:281 -/
def PS16 (P : Mat K) (x : PredIn K) : K := P 11 12 * (PS9 P x)

/-- EKF/covariance.cpp:282 -/
def PS17 (P : Mat K) (x : PredIn K) : K := P 0 11 - P 1 11 * (PS11 P x) + P 11 11 * (PS7 P x) - P 2 11 * (PS12 P x) - P 3 11 * (PS13 P x) + (PS15 P x) + (PS16 P x)

/-- EKF/covariance.cpp:283 -/
def PS18 (P : Mat K) (x : PredIn K) : K := P 10 12 * (PS6 P x)

/-- EKF/covariance.cpp:284 -/
def PS19 (P : Mat K) (x : PredIn K) : K := P 11 12 * (PS7 P x)

/-- EKF/covariance.cpp:285 -/
def PS20 (P : Mat K) (x : PredIn K) : K := P 0 12 - P 1 12 * (PS11 P x) + P 12 12 * (PS9 P x) - P 2 12 * (PS12 P x) - P 3 12 * (PS13 P x) + (PS18 P x) + (PS19 P x)

/-- EKF/covariance.cpp:286 -/
def PS21 (P : Mat K) (x : PredIn K) : K := P 1 2 * (PS12 P x)

/-- EKF/covariance.cpp:287 -/
def PS22 (P : Mat K) (x : PredIn K) : K := -P 1 3 * (PS13 P x)

/-- EKF/covariance.cpp:288 -/
def PS23 (P : Mat K) (x : PredIn K) : K := P 0 1 - P 1 1 * (PS11 P x) + P 1 10 * (PS6 P x) + P 1 11 * (PS7 P x) + P 1 12 * (PS9 P x) - (PS21 P x) + (PS22 P x)

/-- EKF/covariance.cpp:289 -/
def PS24 (P : Mat K) (x : PredIn K) : K := -P 1 2 * (PS11 P x)

/-- EKF/covariance.cpp:290 -/
def PS25 (P : Mat K) (x : PredIn K) : K := P 2 3 * (PS13 P x)

/-- EKF/covariance.cpp:291 -/
def PS26 (P : Mat K) (x : PredIn K) : K := P 0 2 + P 2 10 * (PS6 P x) + P 2 11 * (PS7 P x) + P 2 12 * (PS9 P x) - P 2 2 * (PS12 P x) + (PS24 P x) - (PS25 P x)

/-- EKF/covariance.cpp:292 -/
def PS27 (P : Mat K) (x : PredIn K) : K := P 1 3 * (PS11 P x)

/-- EKF/covariance.cpp:293 -/
def PS28 (P : Mat K) (x : PredIn K) : K := -P 2 3 * (PS12 P x)

/-- EKF/covariance.cpp:294 -/
def PS29 (P : Mat K) (x : PredIn K) : K := P 0 3 + P 3 10 * (PS6 P x) + P 3 11 * (PS7 P x) + P 3 12 * (PS9 P x) - P 3 3 * (PS13 P x) - (PS27 P x) + (PS28 P x)

/-- EKF/covariance.cpp:295 -/
def PS30 (P : Mat K) (x : PredIn K) : K := P 0 1 * (PS11 P x)

/-- EKF/covariance.cpp:296 -/
def PS31 (P : Mat K) (x : PredIn K) : K := P 0 2 * (PS12 P x)

/-- EKF/covariance.cpp:297 -/
def PS32 (P : Mat K) (x : PredIn K) : K := P 0 3 * (PS13 P x)

/-- EKF/covariance.cpp:298 -/
def PS33 (P : Mat K) (x : PredIn K) : K := P 0 0 + P 0 10 * (PS6 P x) + P 0 11 * (PS7 P x) + P 0 12 * (PS9 P x) - (PS30 P x) - (PS31 P x) - (PS32 P x)

/-- EKF/covariance.cpp:299 -/
def PS34 (P : Mat K) (x : PredIn K) : K := (1 / 2) * x.q0

/-- EKF/covariance.cpp:300 -/
def PS35 (P : Mat K) (x : PredIn K) : K := x.q2 * x.q3

/-- EKF/covariance.cpp:301 -/
def PS36 (P : Mat K) (x : PredIn K) : K := x.q0 * x.q1

/-- EKF/covariance.cpp:302 -/
def PS37 (P : Mat K) (x : PredIn K) : K := x.q1 * x.q3

/-- EKF/covariance.cpp:303 -/
def PS38 (P : Mat K) (x : PredIn K) : K := x.q0 * x.q2

/-- EKF/covariance.cpp:304 -/
def PS39 (P : Mat K) (x : PredIn K) : K := x.q1 * x.q2

/-- EKF/covariance.cpp:305 -/
def PS40 (P : Mat K) (x : PredIn K) : K := x.q0 * x.q3

/-- EKF/covariance.cpp:306 -/
def PS41 (P : Mat K) (x : PredIn K) : K := -(PS2 P x)

/-- EKF/covariance.cpp:307 -/
def PS42 (P : Mat K) (x : PredIn K) : K := x.q0 ^ 2

/-- EKF/covariance.cpp:308 -/
def PS43 (P : Mat K) (x : PredIn K) : K := -(PS4 P x) + (PS42 P x)

/-- EKF/covariance.cpp:309 -/
def PS44 (P : Mat K) (x : PredIn K) : K := (PS0 P x) + (PS41 P x) + (PS43 P x)

/-- EKF/covariance.cpp:310 -/
def PS45 (P : Mat K) (x : PredIn K) : K := P 0 13 - P 1 13 * (PS11 P x) + P 10 13 * (PS6 P x) + P 11 13 * (PS7 P x) + P 12 13 * (PS9 P x) - P 2 13 * (PS12 P x) - P 3 13 * (PS13 P x)

/-- EKF/covariance.cpp:311 -/
def PS46 (P : Mat K) (x : PredIn K) : K := (PS37 P x) + (PS38 P x)

/-- EKF/covariance.cpp:312 -/
def PS47 (P : Mat K) (x : PredIn K) : K := P 0 15 - P 1 15 * (PS11 P x) + P 10 15 * (PS6 P x) + P 11 15 * (PS7 P x) + P 12 15 * (PS9 P x) - P 2 15 * (PS12 P x) - P 3 15 * (PS13 P x)

/-- EKF/covariance.cpp:313 -/
def PS48 (P : Mat K) (x : PredIn K) : K := 2 * (PS47 P x)

/-- EKF/covariance.cpp:314 -/
def PS49 (P : Mat K) (x : PredIn K) : K := x.dvy - x.dvy_b

/-- EKF/covariance.cpp:315 -/
def PS50 (P : Mat K) (x : PredIn K) : K := x.dvx - x.dvx_b

/-- EKF/covariance.cpp:316 -/
def PS51 (P : Mat K) (x : PredIn K) : K := x.dvz - x.dvz_b

/-- EKF/covariance.cpp:317 -/
def PS52 (P : Mat K) (x : PredIn K) : K := (PS49 P x) * x.q0 + (PS50 P x) * x.q3 - (PS51 P x) * x.q1

/-- EKF/covariance.cpp:318 -/
def PS53 (P : Mat K) (x : PredIn K) : K := 2 * (PS29 P x)

/-- EKF/covariance.cpp:319 -/
def PS54 (P : Mat K) (x : PredIn K) : K := -(PS39 P x) + (PS40 P x)

/-- EKF/covariance.cpp:320 -/
def PS55 (P : Mat K) (x : PredIn K) : K := P 0 14 - P 1 14 * (PS11 P x) + P 10 14 * (PS6 P x) + P 11 14 * (PS7 P x) + P 12 14 * (PS9 P x) - P 2 14 * (PS12 P x) - P 3 14 * (PS13 P x)

/-- EKF/covariance.cpp:321 -/
def PS56 (P : Mat K) (x : PredIn K) : K := 2 * (PS55 P x)

/-- EKF/covariance.cpp:322 -/
def PS57 (P : Mat K) (x : PredIn K) : K := -(PS49 P x) * x.q3 + (PS50 P x) * x.q0 + (PS51 P x) * x.q2

/-- EKF/covariance.cpp:323 -/
def PS58 (P : Mat K) (x : PredIn K) : K := 2 * (PS33 P x)

/-- EKF/covariance.cpp:324 -/
def PS59 (P : Mat K) (x : PredIn K) : K := (PS49 P x) * x.q1 - (PS50 P x) * x.q2 + (PS51 P x) * x.q0

/-- EKF/covariance.cpp:325 -/
def PS60 (P : Mat K) (x : PredIn K) : K := 2 * (PS59 P x)

/-- EKF/covariance.cpp:326 -/
def PS61 (P : Mat K) (x : PredIn K) : K := (PS49 P x) * x.q2 + (PS50 P x) * x.q1 + (PS51 P x) * x.q3

/-- EKF/covariance.cpp:327 -/
def PS62 (P : Mat K) (x : PredIn K) : K := 2 * (PS61 P x)

/-- EKF/covariance.cpp:328 -/
def PS63 (P : Mat K) (x : PredIn K) : K := P 0 4 - P 1 4 * (PS11 P x) - P 2 4 * (PS12 P x) - P 3 4 * (PS13 P x) + P 4 10 * (PS6 P x) + P 4 11 * (PS7 P x) + P 4 12 * (PS9 P x)

/-- EKF/covariance.cpp:329 -/
def PS64 (P : Mat K) (x : PredIn K) : K := -(PS0 P x)

/-- EKF/covariance.cpp:330 -/
def PS65 (P : Mat K) (x : PredIn K) : K := (PS2 P x) + (PS43 P x) + (PS64 P x)

/-- EKF/covariance.cpp:331 -/
def PS66 (P : Mat K) (x : PredIn K) : K := (PS39 P x) + (PS40 P x)

/-- EKF/covariance.cpp:332 -/
def PS67 (P : Mat K) (x : PredIn K) : K := 2 * (PS45 P x)

/-- EKF/covariance.cpp:333 -/
def PS68 (P : Mat K) (x : PredIn K) : K := -(PS35 P x) + (PS36 P x)

/-- EKF/covariance.cpp:334 -/
def PS69 (P : Mat K) (x : PredIn K) : K := P 0 5 - P 1 5 * (PS11 P x) - P 2 5 * (PS12 P x) - P 3 5 * (PS13 P x) + P 5 10 * (PS6 P x) + P 5 11 * (PS7 P x) + P 5 12 * (PS9 P x)

/-- EKF/covariance.cpp:335 -/
def PS70 (P : Mat K) (x : PredIn K) : K := (PS4 P x) + (PS41 P x) + (PS42 P x) + (PS64 P x)

/-- EKF/covariance.cpp:336 -/
def PS71 (P : Mat K) (x : PredIn K) : K := (PS35 P x) + (PS36 P x)

/-- EKF/covariance.cpp:337 -/
def PS72 (P : Mat K) (x : PredIn K) : K := 2 * (PS57 P x)

/-- EKF/covariance.cpp:338 -/
def PS73 (P : Mat K) (x : PredIn K) : K := -(PS37 P x) + (PS38 P x)

/-- EKF/covariance.cpp:339 -/
def PS74 (P : Mat K) (x : PredIn K) : K := 2 * (PS52 P x)

/-- EKF/covariance.cpp:340 -/
def PS75 (P : Mat K) (x : PredIn K) : K := P 0 6 - P 1 6 * (PS11 P x) - P 2 6 * (PS12 P x) - P 3 6 * (PS13 P x) + P 6 10 * (PS6 P x) + P 6 11 * (PS7 P x) + P 6 12 * (PS9 P x)

/-- EKF/covariance.cpp:341 -/
def PS76 (P : Mat K) (x : PredIn K) : K := -P 10 11 * (PS34 P x)

/-- EKF/covariance.cpp:342 -/
def PS77 (P : Mat K) (x : PredIn K) : K := P 0 11 * (PS11 P x) + P 1 11 + P 11 11 * (PS9 P x) + P 2 11 * (PS13 P x) - P 3 11 * (PS12 P x) - (PS19 P x) + (PS76 P x)

/-- EKF/covariance.cpp:343 -/
def PS78 (P : Mat K) (x : PredIn K) : K := P 0 2 * (PS13 P x)

/-- EKF/covariance.cpp:344 -/
def PS79 (P : Mat K) (x : PredIn K) : K := P 0 3 * (PS12 P x)

/-- EKF/covariance.cpp:345 -/
def PS80 (P : Mat K) (x : PredIn K) : K := P 0 0 * (PS11 P x) + P 0 1 - P 0 10 * (PS34 P x) + P 0 11 * (PS9 P x) - P 0 12 * (PS7 P x) + (PS78 P x) - (PS79 P x)

/-- EKF/covariance.cpp:346 -/
def PS81 (P : Mat K) (x : PredIn K) : K := P 0 2 * (PS11 P x)

/-- EKF/covariance.cpp:347 -/
def PS82 (P : Mat K) (x : PredIn K) : K := P 1 2 - P 2 10 * (PS34 P x) + P 2 11 * (PS9 P x) - P 2 12 * (PS7 P x) + P 2 2 * (PS13 P x) + (PS28 P x) + (PS81 P x)

/-- EKF/covariance.cpp:348 -/
def PS83 (P : Mat K) (x : PredIn K) : K := P 10 11 * (PS9 P x)

/-- EKF/covariance.cpp:349 -/
def PS84 (P : Mat K) (x : PredIn K) : K := P 10 12 * (PS7 P x)

/-- EKF/covariance.cpp:350 -/
def PS85 (P : Mat K) (x : PredIn K) : K := P 0 10 * (PS11 P x) + P 1 10 - P 10 10 * (PS34 P x) + P 2 10 * (PS13 P x) - P 3 10 * (PS12 P x) + (PS83 P x) - (PS84 P x)

/-- EKF/covariance.cpp:351 -/
def PS86 (P : Mat K) (x : PredIn K) : K := -P 10 12 * (PS34 P x)

/-- EKF/covariance.cpp:352 -/
def PS87 (P : Mat K) (x : PredIn K) : K := P 0 12 * (PS11 P x) + P 1 12 - P 12 12 * (PS7 P x) + P 2 12 * (PS13 P x) - P 3 12 * (PS12 P x) + (PS16 P x) + (PS86 P x)

/-- EKF/covariance.cpp:353 -/
def PS88 (P : Mat K) (x : PredIn K) : K := P 0 3 * (PS11 P x)

/-- EKF/covariance.cpp:354 -/
def PS89 (P : Mat K) (x : PredIn K) : K := P 1 3 - P 3 10 * (PS34 P x) + P 3 11 * (PS9 P x) - P 3 12 * (PS7 P x) - P 3 3 * (PS12 P x) + (PS25 P x) + (PS88 P x)

/-- EKF/covariance.cpp:355 -/
def PS90 (P : Mat K) (x : PredIn K) : K := P 1 2 * (PS13 P x)

/-- EKF/covariance.cpp:356 -/
def PS91 (P : Mat K) (x : PredIn K) : K := P 1 3 * (PS12 P x)

/-- EKF/covariance.cpp:357 -/
def PS92 (P : Mat K) (x : PredIn K) : K := P 1 1 - P 1 10 * (PS34 P x) + P 1 11 * (PS9 P x) - P 1 12 * (PS7 P x) + (PS30 P x) + (PS90 P x) - (PS91 P x)

/-- EKF/covariance.cpp:358 -/
def PS93 (P : Mat K) (x : PredIn K) : K := P 0 13 * (PS11 P x) + P 1 13 - P 10 13 * (PS34 P x) + P 11 13 * (PS9 P x) - P 12 13 * (PS7 P x) + P 2 13 * (PS13 P x) - P 3 13 * (PS12 P x)

/-- EKF/covariance.cpp:359 -/
def PS94 (P : Mat K) (x : PredIn K) : K := P 0 15 * (PS11 P x) + P 1 15 - P 10 15 * (PS34 P x) + P 11 15 * (PS9 P x) - P 12 15 * (PS7 P x) + P 2 15 * (PS13 P x) - P 3 15 * (PS12 P x)

/-- EKF/covariance.cpp:360 -/
def PS95 (P : Mat K) (x : PredIn K) : K := 2 * (PS94 P x)

/-- EKF/covariance.cpp:361 -/
def PS96 (P : Mat K) (x : PredIn K) : K := P 0 14 * (PS11 P x) + P 1 14 - P 10 14 * (PS34 P x) + P 11 14 * (PS9 P x) - P 12 14 * (PS7 P x) + P 2 14 * (PS13 P x) - P 3 14 * (PS12 P x)

/-- EKF/covariance.cpp:362 -/
def PS97 (P : Mat K) (x : PredIn K) : K := 2 * (PS96 P x)

/-- EKF/covariance.cpp:363 -/
def PS98 (P : Mat K) (x : PredIn K) : K := P 0 4 * (PS11 P x) + P 1 4 + P 2 4 * (PS13 P x) - P 3 4 * (PS12 P x) - P 4 10 * (PS34 P x) + P 4 11 * (PS9 P x) - P 4 12 * (PS7 P x)

/-- EKF/covariance.cpp:364 -/
def PS99 (P : Mat K) (x : PredIn K) : K := 2 * (PS93 P x)

/-- EKF/covariance.cpp:365 -/
def PS100 (P : Mat K) (x : PredIn K) : K := P 0 5 * (PS11 P x) + P 1 5 + P 2 5 * (PS13 P x) - P 3 5 * (PS12 P x) - P 5 10 * (PS34 P x) + P 5 11 * (PS9 P x) - P 5 12 * (PS7 P x)

/-- EKF/covariance.cpp:366 -/
def PS101 (P : Mat K) (x : PredIn K) : K := P 0 6 * (PS11 P x) + P 1 6 + P 2 6 * (PS13 P x) - P 3 6 * (PS12 P x) - P 6 10 * (PS34 P x) + P 6 11 * (PS9 P x) - P 6 12 * (PS7 P x)

/-- EKF/covariance.cpp:367 -/
def PS102 (P : Mat K) (x : PredIn K) : K := -P 11 12 * (PS34 P x)

/-- EKF/covariance.cpp:368 -/
def PS103 (P : Mat K) (x : PredIn K) : K := P 0 12 * (PS12 P x) - P 1 12 * (PS13 P x) + P 12 12 * (PS6 P x) + P 2 12 + P 3 12 * (PS11 P x) - (PS10 P x) + (PS102 P x)

/-- EKF/covariance.cpp:369 -/
def PS104 (P : Mat K) (x : PredIn K) : K := P 2 3 - P 3 10 * (PS9 P x) - P 3 11 * (PS34 P x) + P 3 12 * (PS6 P x) + P 3 3 * (PS11 P x) + (PS22 P x) + (PS79 P x)

/-- EKF/covariance.cpp:370 -/
def PS105 (P : Mat K) (x : PredIn K) : K := P 0 1 * (PS13 P x)

/-- EKF/covariance.cpp:371 -/
def PS106 (P : Mat K) (x : PredIn K) : K := P 0 0 * (PS12 P x) - P 0 10 * (PS9 P x) - P 0 11 * (PS34 P x) + P 0 12 * (PS6 P x) + P 0 2 - (PS105 P x) + (PS88 P x)

/-- EKF/covariance.cpp:372 -/
def PS107 (P : Mat K) (x : PredIn K) : K := P 11 12 * (PS6 P x)

/-- EKF/covariance.cpp:373 -/
def PS108 (P : Mat K) (x : PredIn K) : K := P 0 11 * (PS12 P x) - P 1 11 * (PS13 P x) - P 11 11 * (PS34 P x) + P 2 11 + P 3 11 * (PS11 P x) + (PS107 P x) - (PS83 P x)

/-- EKF/covariance.cpp:374 -/
def PS109 (P : Mat K) (x : PredIn K) : K := P 0 10 * (PS12 P x) - P 1 10 * (PS13 P x) - P 10 10 * (PS9 P x) + P 2 10 + P 3 10 * (PS11 P x) + (PS18 P x) + (PS76 P x)

/-- EKF/covariance.cpp:375 -/
def PS110 (P : Mat K) (x : PredIn K) : K := P 0 1 * (PS12 P x)

/-- EKF/covariance.cpp:376 -/
def PS111 (P : Mat K) (x : PredIn K) : K := -P 1 1 * (PS13 P x) - P 1 10 * (PS9 P x) - P 1 11 * (PS34 P x) + P 1 12 * (PS6 P x) + P 1 2 + (PS110 P x) + (PS27 P x)

/-- EKF/covariance.cpp:377 -/
def PS112 (P : Mat K) (x : PredIn K) : K := P 2 3 * (PS11 P x)

/-- EKF/covariance.cpp:378 -/
def PS113 (P : Mat K) (x : PredIn K) : K := -P 2 10 * (PS9 P x) - P 2 11 * (PS34 P x) + P 2 12 * (PS6 P x) + P 2 2 + (PS112 P x) + (PS31 P x) - (PS90 P x)

/-- EKF/covariance.cpp:379 -/
def PS114 (P : Mat K) (x : PredIn K) : K := P 0 13 * (PS12 P x) - P 1 13 * (PS13 P x) - P 10 13 * (PS9 P x) - P 11 13 * (PS34 P x) + P 12 13 * (PS6 P x) + P 2 13 + P 3 13 * (PS11 P x)

/-- EKF/covariance.cpp:380 -/
def PS115 (P : Mat K) (x : PredIn K) : K := P 0 15 * (PS12 P x) - P 1 15 * (PS13 P x) - P 10 15 * (PS9 P x) - P 11 15 * (PS34 P x) + P 12 15 * (PS6 P x) + P 2 15 + P 3 15 * (PS11 P x)

/-- EKF/covariance.cpp:381 -/
def PS116 (P : Mat K) (x : PredIn K) : K := 2 * (PS115 P x)

/-- EKF/covariance.cpp:382 -/
def PS117 (P : Mat K) (x : PredIn K) : K := P 0 14 * (PS12 P x) - P 1 14 * (PS13 P x) - P 10 14 * (PS9 P x) - P 11 14 * (PS34 P x) + P 12 14 * (PS6 P x) + P 2 14 + P 3 14 * (PS11 P x)

/-- EKF/covariance.cpp:383 -/
def PS118 (P : Mat K) (x : PredIn K) : K := 2 * (PS117 P x)

/-- EKF/covariance.cpp:384 -/
def PS119 (P : Mat K) (x : PredIn K) : K := P 0 4 * (PS12 P x) - P 1 4 * (PS13 P x) + P 2 4 + P 3 4 * (PS11 P x) - P 4 10 * (PS9 P x) - P 4 11 * (PS34 P x) + P 4 12 * (PS6 P x)

/-- EKF/covariance.cpp:385 -/
def PS120 (P : Mat K) (x : PredIn K) : K := 2 * (PS114 P x)

/-- EKF/covariance.cpp:386 -/
def PS121 (P : Mat K) (x : PredIn K) : K := P 0 5 * (PS12 P x) - P 1 5 * (PS13 P x) + P 2 5 + P 3 5 * (PS11 P x) - P 5 10 * (PS9 P x) - P 5 11 * (PS34 P x) + P 5 12 * (PS6 P x)

/-- EKF/covariance.cpp:387 -/
def PS122 (P : Mat K) (x : PredIn K) : K := P 0 6 * (PS12 P x) - P 1 6 * (PS13 P x) + P 2 6 + P 3 6 * (PS11 P x) - P 6 10 * (PS9 P x) - P 6 11 * (PS34 P x) + P 6 12 * (PS6 P x)

/-- EKF/covariance.cpp:388 -/
def PS123 (P : Mat K) (x : PredIn K) : K := P 0 10 * (PS13 P x) + P 1 10 * (PS12 P x) + P 10 10 * (PS7 P x) - P 2 10 * (PS11 P x) + P 3 10 - (PS15 P x) + (PS86 P x)

/-- EKF/covariance.cpp:389 -/
def PS124 (P : Mat K) (x : PredIn K) : K := P 1 1 * (PS12 P x) + P 1 10 * (PS7 P x) - P 1 11 * (PS6 P x) - P 1 12 * (PS34 P x) + P 1 3 + (PS105 P x) + (PS24 P x)

/-- EKF/covariance.cpp:390 -/
def PS125 (P : Mat K) (x : PredIn K) : K := P 0 0 * (PS13 P x) + P 0 10 * (PS7 P x) - P 0 11 * (PS6 P x) - P 0 12 * (PS34 P x) + P 0 3 + (PS110 P x) - (PS81 P x)

/-- EKF/covariance.cpp:391 -/
def PS126 (P : Mat K) (x : PredIn K) : K := P 0 12 * (PS13 P x) + P 1 12 * (PS12 P x) - P 12 12 * (PS34 P x) - P 2 12 * (PS11 P x) + P 3 12 - (PS107 P x) + (PS84 P x)

/-- EKF/covariance.cpp:392 -/
def PS127 (P : Mat K) (x : PredIn K) : K := P 0 11 * (PS13 P x) + P 1 11 * (PS12 P x) - P 11 11 * (PS6 P x) - P 2 11 * (PS11 P x) + P 3 11 + (PS102 P x) + (PS8 P x)

/-- EKF/covariance.cpp:393 -/
def PS128 (P : Mat K) (x : PredIn K) : K := P 2 10 * (PS7 P x) - P 2 11 * (PS6 P x) - P 2 12 * (PS34 P x) - P 2 2 * (PS11 P x) + P 2 3 + (PS21 P x) + (PS78 P x)

/-- EKF/covariance.cpp:394 -/
def PS129 (P : Mat K) (x : PredIn K) : K := P 3 10 * (PS7 P x) - P 3 11 * (PS6 P x) - P 3 12 * (PS34 P x) + P 3 3 - (PS112 P x) + (PS32 P x) + (PS91 P x)

/-- EKF/covariance.cpp:395 -/
def PS130 (P : Mat K) (x : PredIn K) : K := P 0 13 * (PS13 P x) + P 1 13 * (PS12 P x) + P 10 13 * (PS7 P x) - P 11 13 * (PS6 P x) - P 12 13 * (PS34 P x) - P 2 13 * (PS11 P x) + P 3 13

/-- EKF/covariance.cpp:396 -/
def PS131 (P : Mat K) (x : PredIn K) : K := P 0 15 * (PS13 P x) + P 1 15 * (PS12 P x) + P 10 15 * (PS7 P x) - P 11 15 * (PS6 P x) - P 12 15 * (PS34 P x) - P 2 15 * (PS11 P x) + P 3 15

/-- EKF/covariance.cpp:397 -/
def PS132 (P : Mat K) (x : PredIn K) : K := 2 * (PS131 P x)

/-- EKF/covariance.cpp:398 -/
def PS133 (P : Mat K) (x : PredIn K) : K := P 0 14 * (PS13 P x) + P 1 14 * (PS12 P x) + P 10 14 * (PS7 P x) - P 11 14 * (PS6 P x) - P 12 14 * (PS34 P x) - P 2 14 * (PS11 P x) + P 3 14

/-- EKF/covariance.cpp:399 -/
def PS134 (P : Mat K) (x : PredIn K) : K := 2 * (PS133 P x)

/-- EKF/covariance.cpp:400 -/
def PS135 (P : Mat K) (x : PredIn K) : K := P 0 4 * (PS13 P x) + P 1 4 * (PS12 P x) - P 2 4 * (PS11 P x) + P 3 4 + P 4 10 * (PS7 P x) - P 4 11 * (PS6 P x) - P 4 12 * (PS34 P x)

/-- EKF/covariance.cpp:401 -/
def PS136 (P : Mat K) (x : PredIn K) : K := 2 * (PS130 P x)

/-- EKF/covariance.cpp:402 -/
def PS137 (P : Mat K) (x : PredIn K) : K := P 0 5 * (PS13 P x) + P 1 5 * (PS12 P x) - P 2 5 * (PS11 P x) + P 3 5 + P 5 10 * (PS7 P x) - P 5 11 * (PS6 P x) - P 5 12 * (PS34 P x)

/-- EKF/covariance.cpp:403 -/
def PS138 (P : Mat K) (x : PredIn K) : K := P 0 6 * (PS13 P x) + P 1 6 * (PS12 P x) - P 2 6 * (PS11 P x) + P 3 6 + P 6 10 * (PS7 P x) - P 6 11 * (PS6 P x) - P 6 12 * (PS34 P x)

/-- EKF/covariance.cpp:404 -/
def PS139 (P : Mat K) (x : PredIn K) : K := 2 * (PS46 P x)

/-- EKF/covariance.cpp:405 -/
def PS140 (P : Mat K) (x : PredIn K) : K := 2 * (PS54 P x)

/-- EKF/covariance.cpp:406 -/
def PS141 (P : Mat K) (x : PredIn K) : K := P 0 13 * (PS72 P x) + P 1 13 * (PS62 P x) - P 13 13 * (PS44 P x) + P 13 14 * (PS140 P x) - P 13 15 * (PS139 P x) + P 2 13 * (PS60 P x) - P 3 13 * (PS74 P x) + P 4 13

/-- EKF/covariance.cpp:407 -/
def PS142 (P : Mat K) (x : PredIn K) : K := P 0 15 * (PS72 P x) + P 1 15 * (PS62 P x) - P 13 15 * (PS44 P x) + P 14 15 * (PS140 P x) - P 15 15 * (PS139 P x) + P 2 15 * (PS60 P x) - P 3 15 * (PS74 P x) + P 4 15

/-- EKF/covariance.cpp:408 -/
def PS143 (P : Mat K) (x : PredIn K) : K := P 1 3 * (PS62 P x)

/-- EKF/covariance.cpp:409 -/
def PS144 (P : Mat K) (x : PredIn K) : K := P 0 3 * (PS72 P x)

/-- EKF/covariance.cpp:410 -/
def PS145 (P : Mat K) (x : PredIn K) : K := P 2 3 * (PS60 P x) - P 3 13 * (PS44 P x) + P 3 14 * (PS140 P x) - P 3 15 * (PS139 P x) - P 3 3 * (PS74 P x) + P 3 4 + (PS143 P x) + (PS144 P x)

/-- EKF/covariance.cpp:411 -/
def PS146 (P : Mat K) (x : PredIn K) : K := P 0 14 * (PS72 P x) + P 1 14 * (PS62 P x) - P 13 14 * (PS44 P x) + P 14 14 * (PS140 P x) - P 14 15 * (PS139 P x) + P 2 14 * (PS60 P x) - P 3 14 * (PS74 P x) + P 4 14

/-- EKF/covariance.cpp:412 -/
def PS147 (P : Mat K) (x : PredIn K) : K := P 0 2 * (PS60 P x)

/-- EKF/covariance.cpp:413 -/
def PS148 (P : Mat K) (x : PredIn K) : K := P 0 3 * (PS74 P x)

/-- EKF/covariance.cpp:414 -/
def PS149 (P : Mat K) (x : PredIn K) : K := P 0 0 * (PS72 P x) + P 0 1 * (PS62 P x) - P 0 13 * (PS44 P x) + P 0 14 * (PS140 P x) - P 0 15 * (PS139 P x) + P 0 4 + (PS147 P x) - (PS148 P x)

/-- EKF/covariance.cpp:415 -/
def PS150 (P : Mat K) (x : PredIn K) : K := P 1 2 * (PS62 P x)

/-- EKF/covariance.cpp:416 -/
def PS151 (P : Mat K) (x : PredIn K) : K := P 0 2 * (PS72 P x)

/-- EKF/covariance.cpp:417 -/
def PS152 (P : Mat K) (x : PredIn K) : K := -P 2 13 * (PS44 P x) + P 2 14 * (PS140 P x) - P 2 15 * (PS139 P x) + P 2 2 * (PS60 P x) - P 2 3 * (PS74 P x) + P 2 4 + (PS150 P x) + (PS151 P x)

/-- EKF/covariance.cpp:418 -/
def PS153 (P : Mat K) (x : PredIn K) : K := P 1 2 * (PS60 P x)

/-- EKF/covariance.cpp:419 -/
def PS154 (P : Mat K) (x : PredIn K) : K := P 1 3 * (PS74 P x)

/-- EKF/covariance.cpp:420 -/
def PS155 (P : Mat K) (x : PredIn K) : K := P 0 1 * (PS72 P x) + P 1 1 * (PS62 P x) - P 1 13 * (PS44 P x) + P 1 14 * (PS140 P x) - P 1 15 * (PS139 P x) + P 1 4 + (PS153 P x) - (PS154 P x)

/-- EKF/covariance.cpp:421 -/
def PS156 (P : Mat K) (x : PredIn K) : K := 4 * x.dvyVar

/-- EKF/covariance.cpp:422 -/
def PS157 (P : Mat K) (x : PredIn K) : K := 4 * x.dvzVar

/-- EKF/covariance.cpp:423 -/
def PS158 (P : Mat K) (x : PredIn K) : K := P 0 4 * (PS72 P x) + P 1 4 * (PS62 P x) + P 2 4 * (PS60 P x) - P 3 4 * (PS74 P x) - P 4 13 * (PS44 P x) + P 4 14 * (PS140 P x) - P 4 15 * (PS139 P x) + P 4 4

/-- EKF/covariance.cpp:424 -/
def PS159 (P : Mat K) (x : PredIn K) : K := 2 * (PS141 P x)

/-- EKF/covariance.cpp:425 -/
def PS160 (P : Mat K) (x : PredIn K) : K := 2 * (PS68 P x)

/-- EKF/covariance.cpp:426 -/
def PS161 (P : Mat K) (x : PredIn K) : K := (PS65 P x) * x.dvyVar

/-- EKF/covariance.cpp:427 -/
def PS162 (P : Mat K) (x : PredIn K) : K := 2 * (PS66 P x)

/-- EKF/covariance.cpp:428 -/
def PS163 (P : Mat K) (x : PredIn K) : K := (PS44 P x) * x.dvxVar

/-- EKF/covariance.cpp:429 -/
def PS164 (P : Mat K) (x : PredIn K) : K := P 0 5 * (PS72 P x) + P 1 5 * (PS62 P x) + P 2 5 * (PS60 P x) - P 3 5 * (PS74 P x) + P 4 5 - P 5 13 * (PS44 P x) + P 5 14 * (PS140 P x) - P 5 15 * (PS139 P x)

/-- EKF/covariance.cpp:430 -/
def PS165 (P : Mat K) (x : PredIn K) : K := 2 * (PS71 P x)

/-- EKF/covariance.cpp:431 -/
def PS166 (P : Mat K) (x : PredIn K) : K := 2 * (PS73 P x)

/-- EKF/covariance.cpp:432 -/
def PS167 (P : Mat K) (x : PredIn K) : K := (PS70 P x) * x.dvzVar

/-- EKF/covariance.cpp:433 -/
def PS168 (P : Mat K) (x : PredIn K) : K := P 0 6 * (PS72 P x) + P 1 6 * (PS62 P x) + P 2 6 * (PS60 P x) - P 3 6 * (PS74 P x) + P 4 6 - P 6 13 * (PS44 P x) + P 6 14 * (PS140 P x) - P 6 15 * (PS139 P x)

/-- EKF/covariance.cpp:434 -/
def PS169 (P : Mat K) (x : PredIn K) : K := P 0 14 * (PS74 P x) - P 1 14 * (PS60 P x) - P 13 14 * (PS162 P x) - P 14 14 * (PS65 P x) + P 14 15 * (PS160 P x) + P 2 14 * (PS62 P x) + P 3 14 * (PS72 P x) + P 5 14

/-- EKF/covariance.cpp:435 -/
def PS170 (P : Mat K) (x : PredIn K) : K := P 0 13 * (PS74 P x) - P 1 13 * (PS60 P x) - P 13 13 * (PS162 P x) - P 13 14 * (PS65 P x) + P 13 15 * (PS160 P x) + P 2 13 * (PS62 P x) + P 3 13 * (PS72 P x) + P 5 13

/-- EKF/covariance.cpp:436 -/
def PS171 (P : Mat K) (x : PredIn K) : K := P 0 1 * (PS74 P x)

/-- EKF/covariance.cpp:437 -/
def PS172 (P : Mat K) (x : PredIn K) : K := -P 1 1 * (PS60 P x) - P 1 13 * (PS162 P x) - P 1 14 * (PS65 P x) + P 1 15 * (PS160 P x) + P 1 3 * (PS72 P x) + P 1 5 + (PS150 P x) + (PS171 P x)

/-- EKF/covariance.cpp:438 -/
def PS173 (P : Mat K) (x : PredIn K) : K := P 0 15 * (PS74 P x) - P 1 15 * (PS60 P x) - P 13 15 * (PS162 P x) - P 14 15 * (PS65 P x) + P 15 15 * (PS160 P x) + P 2 15 * (PS62 P x) + P 3 15 * (PS72 P x) + P 5 15

/-- EKF/covariance.cpp:439 -/
def PS174 (P : Mat K) (x : PredIn K) : K := P 2 3 * (PS62 P x)

/-- EKF/covariance.cpp:440 -/
def PS175 (P : Mat K) (x : PredIn K) : K := -P 1 3 * (PS60 P x) - P 3 13 * (PS162 P x) - P 3 14 * (PS65 P x) + P 3 15 * (PS160 P x) + P 3 3 * (PS72 P x) + P 3 5 + (PS148 P x) + (PS174 P x)

/-- EKF/covariance.cpp:441 -/
def PS176 (P : Mat K) (x : PredIn K) : K := P 0 1 * (PS60 P x)

/-- EKF/covariance.cpp:442 -/
def PS177 (P : Mat K) (x : PredIn K) : K := P 0 0 * (PS74 P x) - P 0 13 * (PS162 P x) - P 0 14 * (PS65 P x) + P 0 15 * (PS160 P x) + P 0 2 * (PS62 P x) + P 0 5 + (PS144 P x) - (PS176 P x)

/-- EKF/covariance.cpp:443 -/
def PS178 (P : Mat K) (x : PredIn K) : K := P 2 3 * (PS72 P x)

/-- EKF/covariance.cpp:444 -/
def PS179 (P : Mat K) (x : PredIn K) : K := P 0 2 * (PS74 P x) - P 2 13 * (PS162 P x) - P 2 14 * (PS65 P x) + P 2 15 * (PS160 P x) + P 2 2 * (PS62 P x) + P 2 5 - (PS153 P x) + (PS178 P x)

/-- EKF/covariance.cpp:445 -/
def PS180 (P : Mat K) (x : PredIn K) : K := 4 * x.dvxVar

/-- EKF/covariance.cpp:446 -/
def PS181 (P : Mat K) (x : PredIn K) : K := P 0 5 * (PS74 P x) - P 1 5 * (PS60 P x) + P 2 5 * (PS62 P x) + P 3 5 * (PS72 P x) - P 5 13 * (PS162 P x) - P 5 14 * (PS65 P x) + P 5 15 * (PS160 P x) + P 5 5

/-- EKF/covariance.cpp:447 -/
def PS182 (P : Mat K) (x : PredIn K) : K := P 0 6 * (PS74 P x) - P 1 6 * (PS60 P x) + P 2 6 * (PS62 P x) + P 3 6 * (PS72 P x) + P 5 6 - P 6 13 * (PS162 P x) - P 6 14 * (PS65 P x) + P 6 15 * (PS160 P x)

/-- EKF/covariance.cpp:448 -/
def PS183 (P : Mat K) (x : PredIn K) : K := P 0 15 * (PS60 P x) + P 1 15 * (PS74 P x) + P 13 15 * (PS166 P x) - P 14 15 * (PS165 P x) - P 15 15 * (PS70 P x) - P 2 15 * (PS72 P x) + P 3 15 * (PS62 P x) + P 6 15

/-- EKF/covariance.cpp:449 -/
def PS184 (P : Mat K) (x : PredIn K) : K := P 0 14 * (PS60 P x) + P 1 14 * (PS74 P x) + P 13 14 * (PS166 P x) - P 14 14 * (PS165 P x) - P 14 15 * (PS70 P x) - P 2 14 * (PS72 P x) + P 3 14 * (PS62 P x) + P 6 14

/-- EKF/covariance.cpp:450 -/
def PS185 (P : Mat K) (x : PredIn K) : K := P 0 13 * (PS60 P x) + P 1 13 * (PS74 P x) + P 13 13 * (PS166 P x) - P 13 14 * (PS165 P x) - P 13 15 * (PS70 P x) - P 2 13 * (PS72 P x) + P 3 13 * (PS62 P x) + P 6 13

/-- EKF/covariance.cpp:451 -/
def PS186 (P : Mat K) (x : PredIn K) : K := P 0 6 * (PS60 P x) + P 1 6 * (PS74 P x) - P 2 6 * (PS72 P x) + P 3 6 * (PS62 P x) + P 6 13 * (PS166 P x) - P 6 14 * (PS165 P x) - P 6 15 * (PS70 P x) + P 6 6

/-- EKF/covariance.cpp:457 -/
def nx_0_0 (P : Mat K) (x : PredIn K) : K := (PS0 P x) * (PS1 P x) - (PS11 P x) * (PS23 P x) - (PS12 P x) * (PS26 P x) - (PS13 P x) * (PS29 P x) + (PS14 P x) * (PS6 P x) + (PS17 P x) * (PS7 P x) + (PS2 P x) * (PS3 P x) + (PS20 P x) * (PS9 P x) + (PS33 P x) + (PS4 P x) * (PS5 P x)

/-- EKF/covariance.cpp:458 -/
def nx_0_1 (P : Mat K) (x : PredIn K) : K := -(PS1 P x) * (PS36 P x) + (PS11 P x) * (PS33 P x) - (PS12 P x) * (PS29 P x) + (PS13 P x) * (PS26 P x) - (PS14 P x) * (PS34 P x) + (PS17 P x) * (PS9 P x) - (PS20 P x) * (PS7 P x) + (PS23 P x) + (PS3 P x) * (PS35 P x) - (PS35 P x) * (PS5 P x)

/-- EKF/covariance.cpp:459 -/
def nx_1_1 (P : Mat K) (x : PredIn K) : K := (PS1 P x) * (PS42 P x) + (PS11 P x) * (PS80 P x) - (PS12 P x) * (PS89 P x) + (PS13 P x) * (PS82 P x) + (PS2 P x) * (PS5 P x) + (PS3 P x) * (PS4 P x) - (PS34 P x) * (PS85 P x) - (PS7 P x) * (PS87 P x) + (PS77 P x) * (PS9 P x) + (PS92 P x)

/-- EKF/covariance.cpp:460 -/
def nx_0_2 (P : Mat K) (x : PredIn K) : K := -(PS1 P x) * (PS37 P x) + (PS11 P x) * (PS29 P x) + (PS12 P x) * (PS33 P x) - (PS13 P x) * (PS23 P x) - (PS14 P x) * (PS9 P x) - (PS17 P x) * (PS34 P x) + (PS20 P x) * (PS6 P x) + (PS26 P x) - (PS3 P x) * (PS38 P x) + (PS37 P x) * (PS5 P x)

/-- EKF/covariance.cpp:461 -/
def nx_1_2 (P : Mat K) (x : PredIn K) : K := (PS1 P x) * (PS40 P x) + (PS11 P x) * (PS89 P x) + (PS12 P x) * (PS80 P x) - (PS13 P x) * (PS92 P x) - (PS3 P x) * (PS40 P x) - (PS34 P x) * (PS77 P x) - (PS39 P x) * (PS5 P x) + (PS6 P x) * (PS87 P x) + (PS82 P x) - (PS85 P x) * (PS9 P x)

/-- EKF/covariance.cpp:462 -/
def nx_2_2 (P : Mat K) (x : PredIn K) : K := (PS0 P x) * (PS5 P x) + (PS1 P x) * (PS4 P x) + (PS103 P x) * (PS6 P x) + (PS104 P x) * (PS11 P x) + (PS106 P x) * (PS12 P x) - (PS108 P x) * (PS34 P x) - (PS109 P x) * (PS9 P x) - (PS111 P x) * (PS13 P x) + (PS113 P x) + (PS3 P x) * (PS42 P x)

/-- EKF/covariance.cpp:463 -/
def nx_0_3 (P : Mat K) (x : PredIn K) : K := (PS1 P x) * (PS39 P x) - (PS11 P x) * (PS26 P x) + (PS12 P x) * (PS23 P x) + (PS13 P x) * (PS33 P x) + (PS14 P x) * (PS7 P x) - (PS17 P x) * (PS6 P x) - (PS20 P x) * (PS34 P x) + (PS29 P x) - (PS3 P x) * (PS39 P x) - (PS40 P x) * (PS5 P x)

/-- EKF/covariance.cpp:464 -/
def nx_1_3 (P : Mat K) (x : PredIn K) : K := -(PS1 P x) * (PS38 P x) - (PS11 P x) * (PS82 P x) + (PS12 P x) * (PS92 P x) + (PS13 P x) * (PS80 P x) - (PS3 P x) * (PS37 P x) - (PS34 P x) * (PS87 P x) + (PS38 P x) * (PS5 P x) - (PS6 P x) * (PS77 P x) + (PS7 P x) * (PS85 P x) + (PS89 P x)

/-- EKF/covariance.cpp:465 -/
def nx_2_3 (P : Mat K) (x : PredIn K) : K := -(PS1 P x) * (PS35 P x) - (PS103 P x) * (PS34 P x) + (PS104 P x) + (PS106 P x) * (PS13 P x) - (PS108 P x) * (PS6 P x) + (PS109 P x) * (PS7 P x) - (PS11 P x) * (PS113 P x) + (PS111 P x) * (PS12 P x) + (PS3 P x) * (PS36 P x) - (PS36 P x) * (PS5 P x)

/-- EKF/covariance.cpp:466 -/
def nx_3_3 (P : Mat K) (x : PredIn K) : K := (PS0 P x) * (PS3 P x) + (PS1 P x) * (PS2 P x) - (PS11 P x) * (PS128 P x) + (PS12 P x) * (PS124 P x) + (PS123 P x) * (PS7 P x) + (PS125 P x) * (PS13 P x) - (PS126 P x) * (PS34 P x) - (PS127 P x) * (PS6 P x) + (PS129 P x) + (PS42 P x) * (PS5 P x)

/-- EKF/covariance.cpp:467 -/
def nx_0_4 (P : Mat K) (x : PredIn K) : K := (PS23 P x) * (PS62 P x) + (PS26 P x) * (PS60 P x) - (PS44 P x) * (PS45 P x) - (PS46 P x) * (PS48 P x) - (PS52 P x) * (PS53 P x) + (PS54 P x) * (PS56 P x) + (PS57 P x) * (PS58 P x) + (PS63 P x)

/-- EKF/covariance.cpp:468 -/
def nx_1_4 (P : Mat K) (x : PredIn K) : K := -(PS44 P x) * (PS93 P x) - (PS46 P x) * (PS95 P x) + (PS54 P x) * (PS97 P x) + (PS60 P x) * (PS82 P x) + (PS62 P x) * (PS92 P x) + (PS72 P x) * (PS80 P x) - (PS74 P x) * (PS89 P x) + (PS98 P x)

/-- EKF/covariance.cpp:469 -/
def nx_2_4 (P : Mat K) (x : PredIn K) : K := -(PS104 P x) * (PS74 P x) + (PS106 P x) * (PS72 P x) + (PS111 P x) * (PS62 P x) + (PS113 P x) * (PS60 P x) - (PS114 P x) * (PS44 P x) - (PS116 P x) * (PS46 P x) + (PS118 P x) * (PS54 P x) + (PS119 P x)

/-- EKF/covariance.cpp:470 -/
def nx_3_4 (P : Mat K) (x : PredIn K) : K := (PS124 P x) * (PS62 P x) + (PS125 P x) * (PS72 P x) + (PS128 P x) * (PS60 P x) - (PS129 P x) * (PS74 P x) - (PS130 P x) * (PS44 P x) - (PS132 P x) * (PS46 P x) + (PS134 P x) * (PS54 P x) + (PS135 P x)

/-- EKF/covariance.cpp:471 -/
def nx_4_4 (P : Mat K) (x : PredIn K) : K := -(PS139 P x) * (PS142 P x) + (PS140 P x) * (PS146 P x) - (PS141 P x) * (PS44 P x) - (PS145 P x) * (PS74 P x) + (PS149 P x) * (PS72 P x) + (PS152 P x) * (PS60 P x) + (PS155 P x) * (PS62 P x) + (PS156 P x) * ((PS54 P x)) ^ 2 + (PS157 P x) * ((PS46 P x)) ^ 2 + (PS158 P x) + ((PS44 P x)) ^ 2 * x.dvxVar

/-- EKF/covariance.cpp:472 -/
def nx_0_5 (P : Mat K) (x : PredIn K) : K := -(PS23 P x) * (PS60 P x) + (PS26 P x) * (PS62 P x) + (PS48 P x) * (PS68 P x) + (PS52 P x) * (PS58 P x) + (PS53 P x) * (PS57 P x) - (PS55 P x) * (PS65 P x) - (PS66 P x) * (PS67 P x) + (PS69 P x)

/-- EKF/covariance.cpp:473 -/
def nx_1_5 (P : Mat K) (x : PredIn K) : K := (PS100 P x) - (PS60 P x) * (PS92 P x) + (PS62 P x) * (PS82 P x) - (PS65 P x) * (PS96 P x) - (PS66 P x) * (PS99 P x) + (PS68 P x) * (PS95 P x) + (PS72 P x) * (PS89 P x) + (PS74 P x) * (PS80 P x)

/-- EKF/covariance.cpp:474 -/
def nx_2_5 (P : Mat K) (x : PredIn K) : K := (PS104 P x) * (PS72 P x) + (PS106 P x) * (PS74 P x) - (PS111 P x) * (PS60 P x) + (PS113 P x) * (PS62 P x) + (PS116 P x) * (PS68 P x) - (PS117 P x) * (PS65 P x) - (PS120 P x) * (PS66 P x) + (PS121 P x)

/-- EKF/covariance.cpp:475 -/
def nx_3_5 (P : Mat K) (x : PredIn K) : K := -(PS124 P x) * (PS60 P x) + (PS125 P x) * (PS74 P x) + (PS128 P x) * (PS62 P x) + (PS129 P x) * (PS72 P x) + (PS132 P x) * (PS68 P x) - (PS133 P x) * (PS65 P x) - (PS136 P x) * (PS66 P x) + (PS137 P x)

/-- EKF/covariance.cpp:476 -/
def nx_4_5 (P : Mat K) (x : PredIn K) : K := -(PS140 P x) * (PS161 P x) + (PS142 P x) * (PS160 P x) + (PS145 P x) * (PS72 P x) - (PS146 P x) * (PS65 P x) + (PS149 P x) * (PS74 P x) + (PS152 P x) * (PS62 P x) - (PS155 P x) * (PS60 P x) - (PS157 P x) * (PS46 P x) * (PS68 P x) - (PS159 P x) * (PS66 P x) + (PS162 P x) * (PS163 P x) + (PS164 P x)

/-- EKF/covariance.cpp:477 -/
def nx_5_5 (P : Mat K) (x : PredIn K) : K := (PS157 P x) * ((PS68 P x)) ^ 2 + (PS160 P x) * (PS173 P x) - (PS162 P x) * (PS170 P x) - (PS169 P x) * (PS65 P x) - (PS172 P x) * (PS60 P x) + (PS175 P x) * (PS72 P x) + (PS177 P x) * (PS74 P x) + (PS179 P x) * (PS62 P x) + (PS180 P x) * ((PS66 P x)) ^ 2 + (PS181 P x) + ((PS65 P x)) ^ 2 * x.dvyVar

/-- EKF/covariance.cpp:478 -/
def nx_0_6 (P : Mat K) (x : PredIn K) : K := (PS23 P x) * (PS74 P x) - (PS26 P x) * (PS72 P x) - (PS47 P x) * (PS70 P x) + (PS53 P x) * (PS61 P x) - (PS56 P x) * (PS71 P x) + (PS58 P x) * (PS59 P x) + (PS67 P x) * (PS73 P x) + (PS75 P x)

/-- EKF/covariance.cpp:479 -/
def nx_1_6 (P : Mat K) (x : PredIn K) : K := (PS101 P x) + (PS60 P x) * (PS80 P x) + (PS62 P x) * (PS89 P x) - (PS70 P x) * (PS94 P x) - (PS71 P x) * (PS97 P x) - (PS72 P x) * (PS82 P x) + (PS73 P x) * (PS99 P x) + (PS74 P x) * (PS92 P x)

/-- EKF/covariance.cpp:480 -/
def nx_2_6 (P : Mat K) (x : PredIn K) : K := (PS104 P x) * (PS62 P x) + (PS106 P x) * (PS60 P x) + (PS111 P x) * (PS74 P x) - (PS113 P x) * (PS72 P x) - (PS115 P x) * (PS70 P x) - (PS118 P x) * (PS71 P x) + (PS120 P x) * (PS73 P x) + (PS122 P x)

/-- EKF/covariance.cpp:481 -/
def nx_3_6 (P : Mat K) (x : PredIn K) : K := (PS124 P x) * (PS74 P x) + (PS125 P x) * (PS60 P x) - (PS128 P x) * (PS72 P x) + (PS129 P x) * (PS62 P x) - (PS131 P x) * (PS70 P x) - (PS134 P x) * (PS71 P x) + (PS136 P x) * (PS73 P x) + (PS138 P x)

/-- EKF/covariance.cpp:482 -/
def nx_4_6 (P : Mat K) (x : PredIn K) : K := (PS139 P x) * (PS167 P x) - (PS142 P x) * (PS70 P x) + (PS145 P x) * (PS62 P x) - (PS146 P x) * (PS165 P x) + (PS149 P x) * (PS60 P x) - (PS152 P x) * (PS72 P x) + (PS155 P x) * (PS74 P x) - (PS156 P x) * (PS54 P x) * (PS71 P x) + (PS159 P x) * (PS73 P x) - (PS163 P x) * (PS166 P x) + (PS168 P x)

/-- EKF/covariance.cpp:483 -/
def nx_5_6 (P : Mat K) (x : PredIn K) : K := -(PS160 P x) * (PS167 P x) + (PS161 P x) * (PS165 P x) - (PS165 P x) * (PS169 P x) + (PS166 P x) * (PS170 P x) + (PS172 P x) * (PS74 P x) - (PS173 P x) * (PS70 P x) + (PS175 P x) * (PS62 P x) + (PS177 P x) * (PS60 P x) - (PS179 P x) * (PS72 P x) - (PS180 P x) * (PS66 P x) * (PS73 P x) + (PS182 P x)

/-- EKF/covariance.cpp:484 -/
def nx_6_6 (P : Mat K) (x : PredIn K) : K := (PS156 P x) * ((PS71 P x)) ^ 2 - (PS165 P x) * (PS184 P x) + (PS166 P x) * (PS185 P x) + (PS180 P x) * ((PS73 P x)) ^ 2 - (PS183 P x) * (PS70 P x) + (PS186 P x) + (PS60 P x) * (P 0 0 * (PS60 P x) + P 0 13 * (PS166 P x) - P 0 14 * (PS165 P x) - P 0 15 * (PS70 P x) + P 0 3 * (PS62 P x) + P 0 6 - (PS151 P x) + (PS171 P x)) + (PS62 P x) * (P 0 3 * (PS60 P x) + P 3 13 * (PS166 P x) - P 3 14 * (PS165 P x) - P 3 15 * (PS70 P x) + P 3 3 * (PS62 P x) + P 3 6 + (PS154 P x) - (PS178 P x)) + ((PS70 P x)) ^ 2 * x.dvzVar - (PS72 P x) * (P 1 2 * (PS74 P x) + P 2 13 * (PS166 P x) - P 2 14 * (PS165 P x) - P 2 15 * (PS70 P x) - P 2 2 * (PS72 P x) + P 2 6 + (PS147 P x) + (PS174 P x)) + (PS74 P x) * (P 1 1 * (PS74 P x) + P 1 13 * (PS166 P x) - P 1 14 * (PS165 P x) - P 1 15 * (PS70 P x) - P 1 2 * (PS72 P x) + P 1 6 + (PS143 P x) + (PS176 P x))

/-- EKF/covariance.cpp:485 -/
def nx_0_7 (P : Mat K) (x : PredIn K) : K := P 0 7 - P 1 7 * (PS11 P x) - P 2 7 * (PS12 P x) - P 3 7 * (PS13 P x) + P 7 10 * (PS6 P x) + P 7 11 * (PS7 P x) + P 7 12 * (PS9 P x) + (PS63 P x) * x.dt

/-- EKF/covariance.cpp:486 -/
def nx_1_7 (P : Mat K) (x : PredIn K) : K := P 0 7 * (PS11 P x) + P 1 7 + P 2 7 * (PS13 P x) - P 3 7 * (PS12 P x) - P 7 10 * (PS34 P x) + P 7 11 * (PS9 P x) - P 7 12 * (PS7 P x) + (PS98 P x) * x.dt

/-- EKF/covariance.cpp:487 -/
def nx_2_7 (P : Mat K) (x : PredIn K) : K := P 0 7 * (PS12 P x) - P 1 7 * (PS13 P x) + P 2 7 + P 3 7 * (PS11 P x) - P 7 10 * (PS9 P x) - P 7 11 * (PS34 P x) + P 7 12 * (PS6 P x) + (PS119 P x) * x.dt

/-- EKF/covariance.cpp:488 -/
def nx_3_7 (P : Mat K) (x : PredIn K) : K := P 0 7 * (PS13 P x) + P 1 7 * (PS12 P x) - P 2 7 * (PS11 P x) + P 3 7 + P 7 10 * (PS7 P x) - P 7 11 * (PS6 P x) - P 7 12 * (PS34 P x) + (PS135 P x) * x.dt

/-- EKF/covariance.cpp:489 -/
def nx_4_7 (P : Mat K) (x : PredIn K) : K := P 0 7 * (PS72 P x) + P 1 7 * (PS62 P x) + P 2 7 * (PS60 P x) - P 3 7 * (PS74 P x) + P 4 7 - P 7 13 * (PS44 P x) + P 7 14 * (PS140 P x) - P 7 15 * (PS139 P x) + (PS158 P x) * x.dt

/-- EKF/covariance.cpp:490 -/
def nx_5_7 (P : Mat K) (x : PredIn K) : K := P 0 7 * (PS74 P x) - P 1 7 * (PS60 P x) + P 2 7 * (PS62 P x) + P 3 7 * (PS72 P x) + P 5 7 - P 7 13 * (PS162 P x) - P 7 14 * (PS65 P x) + P 7 15 * (PS160 P x) + x.dt * (P 0 4 * (PS74 P x) - P 1 4 * (PS60 P x) + P 2 4 * (PS62 P x) + P 3 4 * (PS72 P x) - P 4 13 * (PS162 P x) - P 4 14 * (PS65 P x) + P 4 15 * (PS160 P x) + P 4 5)

/-- EKF/covariance.cpp:491 -/
def nx_6_7 (P : Mat K) (x : PredIn K) : K := P 0 7 * (PS60 P x) + P 1 7 * (PS74 P x) - P 2 7 * (PS72 P x) + P 3 7 * (PS62 P x) + P 6 7 + P 7 13 * (PS166 P x) - P 7 14 * (PS165 P x) - P 7 15 * (PS70 P x) + x.dt * (P 0 4 * (PS60 P x) + P 1 4 * (PS74 P x) - P 2 4 * (PS72 P x) + P 3 4 * (PS62 P x) + P 4 13 * (PS166 P x) - P 4 14 * (PS165 P x) - P 4 15 * (PS70 P x) + P 4 6)

/-- EKF/covariance.cpp:492 -/
def nx_7_7 (P : Mat K) (x : PredIn K) : K := P 4 7 * x.dt + P 7 7 + x.dt * (P 4 4 * x.dt + P 4 7)

/-- EKF/covariance.cpp:493 -/
def nx_0_8 (P : Mat K) (x : PredIn K) : K := P 0 8 - P 1 8 * (PS11 P x) - P 2 8 * (PS12 P x) - P 3 8 * (PS13 P x) + P 8 10 * (PS6 P x) + P 8 11 * (PS7 P x) + P 8 12 * (PS9 P x) + (PS69 P x) * x.dt

/-- EKF/covariance.cpp:494 -/
def nx_1_8 (P : Mat K) (x : PredIn K) : K := P 0 8 * (PS11 P x) + P 1 8 + P 2 8 * (PS13 P x) - P 3 8 * (PS12 P x) - P 8 10 * (PS34 P x) + P 8 11 * (PS9 P x) - P 8 12 * (PS7 P x) + (PS100 P x) * x.dt

/-- EKF/covariance.cpp:495 -/
def nx_2_8 (P : Mat K) (x : PredIn K) : K := P 0 8 * (PS12 P x) - P 1 8 * (PS13 P x) + P 2 8 + P 3 8 * (PS11 P x) - P 8 10 * (PS9 P x) - P 8 11 * (PS34 P x) + P 8 12 * (PS6 P x) + (PS121 P x) * x.dt

/-- EKF/covariance.cpp:496 -/
def nx_3_8 (P : Mat K) (x : PredIn K) : K := P 0 8 * (PS13 P x) + P 1 8 * (PS12 P x) - P 2 8 * (PS11 P x) + P 3 8 + P 8 10 * (PS7 P x) - P 8 11 * (PS6 P x) - P 8 12 * (PS34 P x) + (PS137 P x) * x.dt

/-- EKF/covariance.cpp:497 -/
def nx_4_8 (P : Mat K) (x : PredIn K) : K := P 0 8 * (PS72 P x) + P 1 8 * (PS62 P x) + P 2 8 * (PS60 P x) - P 3 8 * (PS74 P x) + P 4 8 - P 8 13 * (PS44 P x) + P 8 14 * (PS140 P x) - P 8 15 * (PS139 P x) + (PS164 P x) * x.dt

/-- EKF/covariance.cpp:498 -/
def nx_5_8 (P : Mat K) (x : PredIn K) : K := P 0 8 * (PS74 P x) - P 1 8 * (PS60 P x) + P 2 8 * (PS62 P x) + P 3 8 * (PS72 P x) + P 5 8 - P 8 13 * (PS162 P x) - P 8 14 * (PS65 P x) + P 8 15 * (PS160 P x) + (PS181 P x) * x.dt

/-- EKF/covariance.cpp:499 -/
def nx_6_8 (P : Mat K) (x : PredIn K) : K := P 0 8 * (PS60 P x) + P 1 8 * (PS74 P x) - P 2 8 * (PS72 P x) + P 3 8 * (PS62 P x) + P 6 8 + P 8 13 * (PS166 P x) - P 8 14 * (PS165 P x) - P 8 15 * (PS70 P x) + x.dt * (P 0 5 * (PS60 P x) + P 1 5 * (PS74 P x) - P 2 5 * (PS72 P x) + P 3 5 * (PS62 P x) + P 5 13 * (PS166 P x) - P 5 14 * (PS165 P x) - P 5 15 * (PS70 P x) + P 5 6)

/-- EKF/covariance.cpp:500 -/
def nx_7_8 (P : Mat K) (x : PredIn K) : K := P 4 8 * x.dt + P 7 8 + x.dt * (P 4 5 * x.dt + P 5 7)

/-- EKF/covariance.cpp:501 -/
def nx_8_8 (P : Mat K) (x : PredIn K) : K := P 5 8 * x.dt + P 8 8 + x.dt * (P 5 5 * x.dt + P 5 8)

/-- EKF/covariance.cpp:502 -/
def nx_0_9 (P : Mat K) (x : PredIn K) : K := P 0 9 - P 1 9 * (PS11 P x) - P 2 9 * (PS12 P x) - P 3 9 * (PS13 P x) + P 9 10 * (PS6 P x) + P 9 11 * (PS7 P x) + P 9 12 * (PS9 P x) + (PS75 P x) * x.dt

/-- EKF/covariance.cpp:503 -/
def nx_1_9 (P : Mat K) (x : PredIn K) : K := P 0 9 * (PS11 P x) + P 1 9 + P 2 9 * (PS13 P x) - P 3 9 * (PS12 P x) - P 9 10 * (PS34 P x) + P 9 11 * (PS9 P x) - P 9 12 * (PS7 P x) + (PS101 P x) * x.dt

/-- EKF/covariance.cpp:504 -/
def nx_2_9 (P : Mat K) (x : PredIn K) : K := P 0 9 * (PS12 P x) - P 1 9 * (PS13 P x) + P 2 9 + P 3 9 * (PS11 P x) - P 9 10 * (PS9 P x) - P 9 11 * (PS34 P x) + P 9 12 * (PS6 P x) + (PS122 P x) * x.dt

/-- EKF/covariance.cpp:505 -/
def nx_3_9 (P : Mat K) (x : PredIn K) : K := P 0 9 * (PS13 P x) + P 1 9 * (PS12 P x) - P 2 9 * (PS11 P x) + P 3 9 + P 9 10 * (PS7 P x) - P 9 11 * (PS6 P x) - P 9 12 * (PS34 P x) + (PS138 P x) * x.dt

/-- EKF/covariance.cpp:506 -/
def nx_4_9 (P : Mat K) (x : PredIn K) : K := P 0 9 * (PS72 P x) + P 1 9 * (PS62 P x) + P 2 9 * (PS60 P x) - P 3 9 * (PS74 P x) + P 4 9 - P 9 13 * (PS44 P x) + P 9 14 * (PS140 P x) - P 9 15 * (PS139 P x) + (PS168 P x) * x.dt

/-- EKF/covariance.cpp:507 -/
def nx_5_9 (P : Mat K) (x : PredIn K) : K := P 0 9 * (PS74 P x) - P 1 9 * (PS60 P x) + P 2 9 * (PS62 P x) + P 3 9 * (PS72 P x) + P 5 9 - P 9 13 * (PS162 P x) - P 9 14 * (PS65 P x) + P 9 15 * (PS160 P x) + (PS182 P x) * x.dt

/-- EKF/covariance.cpp:508 -/
def nx_6_9 (P : Mat K) (x : PredIn K) : K := P 0 9 * (PS60 P x) + P 1 9 * (PS74 P x) - P 2 9 * (PS72 P x) + P 3 9 * (PS62 P x) + P 6 9 + P 9 13 * (PS166 P x) - P 9 14 * (PS165 P x) - P 9 15 * (PS70 P x) + (PS186 P x) * x.dt

/-- EKF/covariance.cpp:509 -/
def nx_7_9 (P : Mat K) (x : PredIn K) : K := P 4 9 * x.dt + P 7 9 + x.dt * (P 4 6 * x.dt + P 6 7)

/-- EKF/covariance.cpp:510 -/
def nx_8_9 (P : Mat K) (x : PredIn K) : K := P 5 9 * x.dt + P 8 9 + x.dt * (P 5 6 * x.dt + P 6 8)

/-- EKF/covariance.cpp:511 -/
def nx_9_9 (P : Mat K) (x : PredIn K) : K := P 6 9 * x.dt + P 9 9 + x.dt * (P 6 6 * x.dt + P 6 9)

/-- EKF/covariance.cpp:512 -/
def nx_0_10 (P : Mat K) (x : PredIn K) : K := (PS14 P x)

/-- EKF/covariance.cpp:513 -/
def nx_1_10 (P : Mat K) (x : PredIn K) : K := (PS85 P x)

/-- EKF/covariance.cpp:514 -/
def nx_2_10 (P : Mat K) (x : PredIn K) : K := (PS109 P x)

/-- EKF/covariance.cpp:515 -/
def nx_3_10 (P : Mat K) (x : PredIn K) : K := (PS123 P x)

/-- EKF/covariance.cpp:516 -/
def nx_4_10 (P : Mat K) (x : PredIn K) : K := P 0 10 * (PS72 P x) + P 1 10 * (PS62 P x) - P 10 13 * (PS44 P x) + P 10 14 * (PS140 P x) - P 10 15 * (PS139 P x) + P 2 10 * (PS60 P x) - P 3 10 * (PS74 P x) + P 4 10

/-- EKF/covariance.cpp:517 -/
def nx_5_10 (P : Mat K) (x : PredIn K) : K := P 0 10 * (PS74 P x) - P 1 10 * (PS60 P x) - P 10 13 * (PS162 P x) - P 10 14 * (PS65 P x) + P 10 15 * (PS160 P x) + P 2 10 * (PS62 P x) + P 3 10 * (PS72 P x) + P 5 10

/-- EKF/covariance.cpp:518 -/
def nx_6_10 (P : Mat K) (x : PredIn K) : K := P 0 10 * (PS60 P x) + P 1 10 * (PS74 P x) + P 10 13 * (PS166 P x) - P 10 14 * (PS165 P x) - P 10 15 * (PS70 P x) - P 2 10 * (PS72 P x) + P 3 10 * (PS62 P x) + P 6 10

/-- EKF/covariance.cpp:519 -/
def nx_7_10 (P : Mat K) (x : PredIn K) : K := P 4 10 * x.dt + P 7 10

/-- EKF/covariance.cpp:520 -/
def nx_8_10 (P : Mat K) (x : PredIn K) : K := P 5 10 * x.dt + P 8 10

/-- EKF/covariance.cpp:521 -/
def nx_9_10 (P : Mat K) (x : PredIn K) : K := P 6 10 * x.dt + P 9 10

/-- EKF/covariance.cpp:522 -/
def nx_10_10 (P : Mat K) (x : PredIn K) : K := P 10 10

/-- EKF/covariance.cpp:523 -/
def nx_0_11 (P : Mat K) (x : PredIn K) : K := (PS17 P x)

/-- EKF/covariance.cpp:524 -/
def nx_1_11 (P : Mat K) (x : PredIn K) : K := (PS77 P x)

/-- EKF/covariance.cpp:525 -/
def nx_2_11 (P : Mat K) (x : PredIn K) : K := (PS108 P x)

/-- EKF/covariance.cpp:526 -/
def nx_3_11 (P : Mat K) (x : PredIn K) : K := (PS127 P x)

/-- EKF/covariance.cpp:527 -/
def nx_4_11 (P : Mat K) (x : PredIn K) : K := P 0 11 * (PS72 P x) + P 1 11 * (PS62 P x) - P 11 13 * (PS44 P x) + P 11 14 * (PS140 P x) - P 11 15 * (PS139 P x) + P 2 11 * (PS60 P x) - P 3 11 * (PS74 P x) + P 4 11

/-- EKF/covariance.cpp:528 -/
def nx_5_11 (P : Mat K) (x : PredIn K) : K := P 0 11 * (PS74 P x) - P 1 11 * (PS60 P x) - P 11 13 * (PS162 P x) - P 11 14 * (PS65 P x) + P 11 15 * (PS160 P x) + P 2 11 * (PS62 P x) + P 3 11 * (PS72 P x) + P 5 11

/-- EKF/covariance.cpp:529 -/
def nx_6_11 (P : Mat K) (x : PredIn K) : K := P 0 11 * (PS60 P x) + P 1 11 * (PS74 P x) + P 11 13 * (PS166 P x) - P 11 14 * (PS165 P x) - P 11 15 * (PS70 P x) - P 2 11 * (PS72 P x) + P 3 11 * (PS62 P x) + P 6 11

/-- EKF/covariance.cpp:530 -/
def nx_7_11 (P : Mat K) (x : PredIn K) : K := P 4 11 * x.dt + P 7 11

/-- EKF/covariance.cpp:531 -/
def nx_8_11 (P : Mat K) (x : PredIn K) : K := P 5 11 * x.dt + P 8 11

/-- EKF/covariance.cpp:532 -/
def nx_9_11 (P : Mat K) (x : PredIn K) : K := P 6 11 * x.dt + P 9 11

/-- EKF/covariance.cpp:533 -/
def nx_10_11 (P : Mat K) (x : PredIn K) : K := P 10 11

/-- EKF/covariance.cpp:534 -/
def nx_11_11 (P : Mat K) (x : PredIn K) : K := P 11 11

/-- EKF/covariance.cpp:535 -/
def nx_0_12 (P : Mat K) (x : PredIn K) : K := (PS20 P x)

/-- EKF/covariance.cpp:536 -/
def nx_1_12 (P : Mat K) (x : PredIn K) : K := (PS87 P x)

/-- EKF/covariance.cpp:537 -/
def nx_2_12 (P : Mat K) (x : PredIn K) : K := (PS103 P x)

/-- EKF/covariance.cpp:538 -/
def nx_3_12 (P : Mat K) (x : PredIn K) : K := (PS126 P x)

/-- EKF/covariance.cpp:539 -/
def nx_4_12 (P : Mat K) (x : PredIn K) : K := P 0 12 * (PS72 P x) + P 1 12 * (PS62 P x) - P 12 13 * (PS44 P x) + P 12 14 * (PS140 P x) - P 12 15 * (PS139 P x) + P 2 12 * (PS60 P x) - P 3 12 * (PS74 P x) + P 4 12

/-- EKF/covariance.cpp:540 -/
def nx_5_12 (P : Mat K) (x : PredIn K) : K := P 0 12 * (PS74 P x) - P 1 12 * (PS60 P x) - P 12 13 * (PS162 P x) - P 12 14 * (PS65 P x) + P 12 15 * (PS160 P x) + P 2 12 * (PS62 P x) + P 3 12 * (PS72 P x) + P 5 12

/-- EKF/covariance.cpp:541 -/
def nx_6_12 (P : Mat K) (x : PredIn K) : K := P 0 12 * (PS60 P x) + P 1 12 * (PS74 P x) + P 12 13 * (PS166 P x) - P 12 14 * (PS165 P x) - P 12 15 * (PS70 P x) - P 2 12 * (PS72 P x) + P 3 12 * (PS62 P x) + P 6 12

/-- EKF/covariance.cpp:542 -/
def nx_7_12 (P : Mat K) (x : PredIn K) : K := P 4 12 * x.dt + P 7 12

/-- EKF/covariance.cpp:543 -/
def nx_8_12 (P : Mat K) (x : PredIn K) : K := P 5 12 * x.dt + P 8 12

/-- EKF/covariance.cpp:544 -/
def nx_9_12 (P : Mat K) (x : PredIn K) : K := P 6 12 * x.dt + P 9 12

/-- EKF/covariance.cpp:545 -/
def nx_10_12 (P : Mat K) (x : PredIn K) : K := P 10 12

/-- EKF/covariance.cpp:546 -/
def nx_11_12 (P : Mat K) (x : PredIn K) : K := P 11 12

/-- EKF/covariance.cpp:547 -/
def nx_12_12 (P : Mat K) (x : PredIn K) : K := P 12 12

/-- EKF/covariance.cpp:558 -/
def nx_0_13 (P : Mat K) (x : PredIn K) : K := (PS45 P x)

/-- EKF/covariance.cpp:559 -/
def nx_1_13 (P : Mat K) (x : PredIn K) : K := (PS93 P x)

/-- EKF/covariance.cpp:560 -/
def nx_2_13 (P : Mat K) (x : PredIn K) : K := (PS114 P x)

/-- EKF/covariance.cpp:561 -/
def nx_3_13 (P : Mat K) (x : PredIn K) : K := (PS130 P x)

/-- EKF/covariance.cpp:562 -/
def nx_4_13 (P : Mat K) (x : PredIn K) : K := (PS141 P x)

/-- EKF/covariance.cpp:563 -/
def nx_5_13 (P : Mat K) (x : PredIn K) : K := (PS170 P x)

/-- EKF/covariance.cpp:564 -/
def nx_6_13 (P : Mat K) (x : PredIn K) : K := (PS185 P x)

/-- EKF/covariance.cpp:565 -/
def nx_7_13 (P : Mat K) (x : PredIn K) : K := P 4 13 * x.dt + P 7 13

/-- EKF/covariance.cpp:566 -/
def nx_8_13 (P : Mat K) (x : PredIn K) : K := P 5 13 * x.dt + P 8 13

/-- EKF/covariance.cpp:567 -/
def nx_9_13 (P : Mat K) (x : PredIn K) : K := P 6 13 * x.dt + P 9 13

/-- EKF/covariance.cpp:568 -/
def nx_10_13 (P : Mat K) (x : PredIn K) : K := P 10 13

/-- EKF/covariance.cpp:569 -/
def nx_11_13 (P : Mat K) (x : PredIn K) : K := P 11 13

/-- EKF/covariance.cpp:570 -/
def nx_12_13 (P : Mat K) (x : PredIn K) : K := P 12 13

/-- EKF/covariance.cpp:571 -/
def nx_13_13 (P : Mat K) (x : PredIn K) : K := P 13 13

/-- EKF/covariance.cpp:586 -/
def nx_0_14 (P : Mat K) (x : PredIn K) : K := (PS55 P x)

/-- EKF/covariance.cpp:587 -/
def nx_1_14 (P : Mat K) (x : PredIn K) : K := (PS96 P x)

/-- EKF/covariance.cpp:588 -/
def nx_2_14 (P : Mat K) (x : PredIn K) : K := (PS117 P x)

/-- EKF/covariance.cpp:589 -/
def nx_3_14 (P : Mat K) (x : PredIn K) : K := (PS133 P x)

/-- EKF/covariance.cpp:590 -/
def nx_4_14 (P : Mat K) (x : PredIn K) : K := (PS146 P x)

/-- EKF/covariance.cpp:591 -/
def nx_5_14 (P : Mat K) (x : PredIn K) : K := (PS169 P x)

/-- EKF/covariance.cpp:592 -/
def nx_6_14 (P : Mat K) (x : PredIn K) : K := (PS184 P x)

/-- EKF/covariance.cpp:593 -/
def nx_7_14 (P : Mat K) (x : PredIn K) : K := P 4 14 * x.dt + P 7 14

/-- EKF/covariance.cpp:594 -/
def nx_8_14 (P : Mat K) (x : PredIn K) : K := P 5 14 * x.dt + P 8 14

/-- EKF/covariance.cpp:595 -/
def nx_9_14 (P : Mat K) (x : PredIn K) : K := P 6 14 * x.dt + P 9 14

/-- EKF/covariance.cpp:596 -/
def nx_10_14 (P : Mat K) (x : PredIn K) : K := P 10 14

/-- EKF/covariance.cpp:597 -/
def nx_11_14 (P : Mat K) (x : PredIn K) : K := P 11 14

/-- EKF/covariance.cpp:598 -/
def nx_12_14 (P : Mat K) (x : PredIn K) : K := P 12 14

/-- EKF/covariance.cpp:599 -/
def nx_13_14 (P : Mat K) (x : PredIn K) : K := P 13 14

/-- EKF/covariance.cpp:600 -/
def nx_14_14 (P : Mat K) (x : PredIn K) : K := P 14 14

/-- EKF/covariance.cpp:615 -/
def nx_0_15 (P : Mat K) (x : PredIn K) : K := (PS47 P x)

/-- EKF/covariance.cpp:616 -/
def nx_1_15 (P : Mat K) (x : PredIn K) : K := (PS94 P x)

/-- EKF/covariance.cpp:617 -/
def nx_2_15 (P : Mat K) (x : PredIn K) : K := (PS115 P x)

/-- EKF/covariance.cpp:618 -/
def nx_3_15 (P : Mat K) (x : PredIn K) : K := (PS131 P x)

/-- EKF/covariance.cpp:619 -/
def nx_4_15 (P : Mat K) (x : PredIn K) : K := (PS142 P x)

/-- EKF/covariance.cpp:620 -/
def nx_5_15 (P : Mat K) (x : PredIn K) : K := (PS173 P x)

/-- EKF/covariance.cpp:621 -/
def nx_6_15 (P : Mat K) (x : PredIn K) : K := (PS183 P x)

/-- EKF/covariance.cpp:622 -/
def nx_7_15 (P : Mat K) (x : PredIn K) : K := P 4 15 * x.dt + P 7 15

/-- EKF/covariance.cpp:623 -/
def nx_8_15 (P : Mat K) (x : PredIn K) : K := P 5 15 * x.dt + P 8 15

/-- EKF/covariance.cpp:624 -/
def nx_9_15 (P : Mat K) (x : PredIn K) : K := P 6 15 * x.dt + P 9 15

/-- EKF/covariance.cpp:625 -/
def nx_10_15 (P : Mat K) (x : PredIn K) : K := P 10 15

/-- EKF/covariance.cpp:626 -/
def nx_11_15 (P : Mat K) (x : PredIn K) : K := P 11 15

/-- EKF/covariance.cpp:627 -/
def nx_12_15 (P : Mat K) (x : PredIn K) : K := P 12 15

/-- EKF/covariance.cpp:628 -/
def nx_13_15 (P : Mat K) (x : PredIn K) : K := P 13 15

/-- EKF/covariance.cpp:629 -/
def nx_14_15 (P : Mat K) (x : PredIn K) : K := P 14 15

/-- EKF/covariance.cpp:630 -/
def nx_15_15 (P : Mat K) (x : PredIn K) : K := P 15 15

/-- EKF/covariance.cpp:646 -/
def nx_0_16 (P : Mat K) (x : PredIn K) : K := P 0 16 - P 1 16 * (PS11 P x) + P 10 16 * (PS6 P x) + P 11 16 * (PS7 P x) + P 12 16 * (PS9 P x) - P 2 16 * (PS12 P x) - P 3 16 * (PS13 P x)

/-- EKF/covariance.cpp:647 -/
def nx_1_16 (P : Mat K) (x : PredIn K) : K := P 0 16 * (PS11 P x) + P 1 16 - P 10 16 * (PS34 P x) + P 11 16 * (PS9 P x) - P 12 16 * (PS7 P x) + P 2 16 * (PS13 P x) - P 3 16 * (PS12 P x)

/-- EKF/covariance.cpp:648 -/
def nx_2_16 (P : Mat K) (x : PredIn K) : K := P 0 16 * (PS12 P x) - P 1 16 * (PS13 P x) - P 10 16 * (PS9 P x) - P 11 16 * (PS34 P x) + P 12 16 * (PS6 P x) + P 2 16 + P 3 16 * (PS11 P x)

/-- EKF/covariance.cpp:649 -/
def nx_3_16 (P : Mat K) (x : PredIn K) : K := P 0 16 * (PS13 P x) + P 1 16 * (PS12 P x) + P 10 16 * (PS7 P x) - P 11 16 * (PS6 P x) - P 12 16 * (PS34 P x) - P 2 16 * (PS11 P x) + P 3 16

/-- EKF/covariance.cpp:650 -/
def nx_4_16 (P : Mat K) (x : PredIn K) : K := P 0 16 * (PS72 P x) + P 1 16 * (PS62 P x) - P 13 16 * (PS44 P x) + P 14 16 * (PS140 P x) - P 15 16 * (PS139 P x) + P 2 16 * (PS60 P x) - P 3 16 * (PS74 P x) + P 4 16

/-- EKF/covariance.cpp:651 -/
def nx_5_16 (P : Mat K) (x : PredIn K) : K := P 0 16 * (PS74 P x) - P 1 16 * (PS60 P x) - P 13 16 * (PS162 P x) - P 14 16 * (PS65 P x) + P 15 16 * (PS160 P x) + P 2 16 * (PS62 P x) + P 3 16 * (PS72 P x) + P 5 16

/-- EKF/covariance.cpp:652 -/
def nx_6_16 (P : Mat K) (x : PredIn K) : K := P 0 16 * (PS60 P x) + P 1 16 * (PS74 P x) + P 13 16 * (PS166 P x) - P 14 16 * (PS165 P x) - P 15 16 * (PS70 P x) - P 2 16 * (PS72 P x) + P 3 16 * (PS62 P x) + P 6 16

/-- EKF/covariance.cpp:653 -/
def nx_7_16 (P : Mat K) (x : PredIn K) : K := P 4 16 * x.dt + P 7 16

/-- EKF/covariance.cpp:654 -/
def nx_8_16 (P : Mat K) (x : PredIn K) : K := P 5 16 * x.dt + P 8 16

/-- EKF/covariance.cpp:655 -/
def nx_9_16 (P : Mat K) (x : PredIn K) : K := P 6 16 * x.dt + P 9 16

/-- EKF/covariance.cpp:656 -/
def nx_10_16 (P : Mat K) (x : PredIn K) : K := P 10 16

/-- EKF/covariance.cpp:657 -/
def nx_11_16 (P : Mat K) (x : PredIn K) : K := P 11 16

/-- EKF/covariance.cpp:658 -/
def nx_12_16 (P : Mat K) (x : PredIn K) : K := P 12 16

/-- EKF/covariance.cpp:659 -/
def nx_13_16 (P : Mat K) (x : PredIn K) : K := P 13 16

/-- EKF/covariance.cpp:660 -/
def nx_14_16 (P : Mat K) (x : PredIn K) : K := P 14 16

/-- EKF/covariance.cpp:661 -/
def nx_15_16 (P : Mat K) (x : PredIn K) : K := P 15 16

/-- EKF/covariance.cpp:662 -/
def nx_16_16 (P : Mat K) (x : PredIn K) : K := P 16 16

/-- EKF/covariance.cpp:663 -/
def nx_0_17 (P : Mat K) (x : PredIn K) : K := P 0 17 - P 1 17 * (PS11 P x) + P 10 17 * (PS6 P x) + P 11 17 * (PS7 P x) + P 12 17 * (PS9 P x) - P 2 17 * (PS12 P x) - P 3 17 * (PS13 P x)

/-- EKF/covariance.cpp:664 -/
def nx_1_17 (P : Mat K) (x : PredIn K) : K := P 0 17 * (PS11 P x) + P 1 17 - P 10 17 * (PS34 P x) + P 11 17 * (PS9 P x) - P 12 17 * (PS7 P x) + P 2 17 * (PS13 P x) - P 3 17 * (PS12 P x)

/-- EKF/covariance.cpp:665 -/
def nx_2_17 (P : Mat K) (x : PredIn K) : K := P 0 17 * (PS12 P x) - P 1 17 * (PS13 P x) - P 10 17 * (PS9 P x) - P 11 17 * (PS34 P x) + P 12 17 * (PS6 P x) + P 2 17 + P 3 17 * (PS11 P x)

/-- EKF/covariance.cpp:666 -/
def nx_3_17 (P : Mat K) (x : PredIn K) : K := P 0 17 * (PS13 P x) + P 1 17 * (PS12 P x) + P 10 17 * (PS7 P x) - P 11 17 * (PS6 P x) - P 12 17 * (PS34 P x) - P 2 17 * (PS11 P x) + P 3 17

/-- EKF/covariance.cpp:667 -/
def nx_4_17 (P : Mat K) (x : PredIn K) : K := P 0 17 * (PS72 P x) + P 1 17 * (PS62 P x) - P 13 17 * (PS44 P x) + P 14 17 * (PS140 P x) - P 15 17 * (PS139 P x) + P 2 17 * (PS60 P x) - P 3 17 * (PS74 P x) + P 4 17

/-- EKF/covariance.cpp:668 -/
def nx_5_17 (P : Mat K) (x : PredIn K) : K := P 0 17 * (PS74 P x) - P 1 17 * (PS60 P x) - P 13 17 * (PS162 P x) - P 14 17 * (PS65 P x) + P 15 17 * (PS160 P x) + P 2 17 * (PS62 P x) + P 3 17 * (PS72 P x) + P 5 17

/-- EKF/covariance.cpp:669 -/
def nx_6_17 (P : Mat K) (x : PredIn K) : K := P 0 17 * (PS60 P x) + P 1 17 * (PS74 P x) + P 13 17 * (PS166 P x) - P 14 17 * (PS165 P x) - P 15 17 * (PS70 P x) - P 2 17 * (PS72 P x) + P 3 17 * (PS62 P x) + P 6 17

/-- EKF/covariance.cpp:670 -/
def nx_7_17 (P : Mat K) (x : PredIn K) : K := P 4 17 * x.dt + P 7 17

/-- EKF/covariance.cpp:671 -/
def nx_8_17 (P : Mat K) (x : PredIn K) : K := P 5 17 * x.dt + P 8 17

/-- EKF/covariance.cpp:672 -/
def nx_9_17 (P : Mat K) (x : PredIn K) : K := P 6 17 * x.dt + P 9 17

/-- EKF/covariance.cpp:673 -/
def nx_10_17 (P : Mat K) (x : PredIn K) : K := P 10 17

/-- EKF/covariance.cpp:674 -/
def nx_11_17 (P : Mat K) (x : PredIn K) : K := P 11 17

/-- EKF/covariance.cpp:675 -/
def nx_12_17 (P : Mat K) (x : PredIn K) : K := P 12 17

/-- EKF/covariance.cpp:676 -/
def nx_13_17 (P : Mat K) (x : PredIn K) : K := P 13 17

/-- EKF/covariance.cpp:677 -/
def nx_14_17 (P : Mat K) (x : PredIn K) : K := P 14 17

/-- EKF/covariance.cpp:678 -/
def nx_15_17 (P : Mat K) (x : PredIn K) : K := P 15 17

/-- EKF/covariance.cpp:679 -/
def nx_16_17 (P : Mat K) (x : PredIn K) : K := P 16 17

/-- EKF/covariance.cpp:680 -/
def nx_17_17 (P : Mat K) (x : PredIn K) : K := P 17 17

/-- EKF/covariance.cpp:681 -/
def nx_0_18 (P : Mat K) (x : PredIn K) : K := P 0 18 - P 1 18 * (PS11 P x) + P 10 18 * (PS6 P x) + P 11 18 * (PS7 P x) + P 12 18 * (PS9 P x) - P 2 18 * (PS12 P x) - P 3 18 * (PS13 P x)

/-- EKF/covariance.cpp:682 -/
def nx_1_18 (P : Mat K) (x : PredIn K) : K := P 0 18 * (PS11 P x) + P 1 18 - P 10 18 * (PS34 P x) + P 11 18 * (PS9 P x) - P 12 18 * (PS7 P x) + P 2 18 * (PS13 P x) - P 3 18 * (PS12 P x)

/-- EKF/covariance.cpp:683 -/
def nx_2_18 (P : Mat K) (x : PredIn K) : K := P 0 18 * (PS12 P x) - P 1 18 * (PS13 P x) - P 10 18 * (PS9 P x) - P 11 18 * (PS34 P x) + P 12 18 * (PS6 P x) + P 2 18 + P 3 18 * (PS11 P x)

/-- EKF/covariance.cpp:684 -/
def nx_3_18 (P : Mat K) (x : PredIn K) : K := P 0 18 * (PS13 P x) + P 1 18 * (PS12 P x) + P 10 18 * (PS7 P x) - P 11 18 * (PS6 P x) - P 12 18 * (PS34 P x) - P 2 18 * (PS11 P x) + P 3 18

/-- EKF/covariance.cpp:685 -/
def nx_4_18 (P : Mat K) (x : PredIn K) : K := P 0 18 * (PS72 P x) + P 1 18 * (PS62 P x) - P 13 18 * (PS44 P x) + P 14 18 * (PS140 P x) - P 15 18 * (PS139 P x) + P 2 18 * (PS60 P x) - P 3 18 * (PS74 P x) + P 4 18

/-- EKF/covariance.cpp:686 -/
def nx_5_18 (P : Mat K) (x : PredIn K) : K := P 0 18 * (PS74 P x) - P 1 18 * (PS60 P x) - P 13 18 * (PS162 P x) - P 14 18 * (PS65 P x) + P 15 18 * (PS160 P x) + P 2 18 * (PS62 P x) + P 3 18 * (PS72 P x) + P 5 18

/-- EKF/covariance.cpp:687 -/
def nx_6_18 (P : Mat K) (x : PredIn K) : K := P 0 18 * (PS60 P x) + P 1 18 * (PS74 P x) + P 13 18 * (PS166 P x) - P 14 18 * (PS165 P x) - P 15 18 * (PS70 P x) - P 2 18 * (PS72 P x) + P 3 18 * (PS62 P x) + P 6 18

/-- EKF/covariance.cpp:688 -/
def nx_7_18 (P : Mat K) (x : PredIn K) : K := P 4 18 * x.dt + P 7 18

/-- EKF/covariance.cpp:689 -/
def nx_8_18 (P : Mat K) (x : PredIn K) : K := P 5 18 * x.dt + P 8 18

/-- EKF/covariance.cpp:690 -/
def nx_9_18 (P : Mat K) (x : PredIn K) : K := P 6 18 * x.dt + P 9 18

/-- EKF/covariance.cpp:691 -/
def nx_10_18 (P : Mat K) (x : PredIn K) : K := P 10 18

/-- EKF/covariance.cpp:692 -/
def nx_11_18 (P : Mat K) (x : PredIn K) : K := P 11 18

/-- EKF/covariance.cpp:693 -/
def nx_12_18 (P : Mat K) (x : PredIn K) : K := P 12 18

/-- EKF/covariance.cpp:694 -/
def nx_13_18 (P : Mat K) (x : PredIn K) : K := P 13 18

/-- EKF/covariance.cpp:695 -/
def nx_14_18 (P : Mat K) (x : PredIn K) : K := P 14 18

/-- EKF/covariance.cpp:696 -/
def nx_15_18 (P : Mat K) (x : PredIn K) : K := P 15 18

/-- EKF/covariance.cpp:697 -/
def nx_16_18 (P : Mat K) (x : PredIn K) : K := P 16 18

/-- EKF/covariance.cpp:698 -/
def nx_17_18 (P : Mat K) (x : PredIn K) : K := P 17 18

/-- EKF/covariance.cpp:699 -/
def nx_18_18 (P : Mat K) (x : PredIn K) : K := P 18 18

/-- EKF/covariance.cpp:700 -/
def nx_0_19 (P : Mat K) (x : PredIn K) : K := P 0 19 - P 1 19 * (PS11 P x) + P 10 19 * (PS6 P x) + P 11 19 * (PS7 P x) + P 12 19 * (PS9 P x) - P 2 19 * (PS12 P x) - P 3 19 * (PS13 P x)

/-- EKF/covariance.cpp:701 -/
def nx_1_19 (P : Mat K) (x : PredIn K) : K := P 0 19 * (PS11 P x) + P 1 19 - P 10 19 * (PS34 P x) + P 11 19 * (PS9 P x) - P 12 19 * (PS7 P x) + P 2 19 * (PS13 P x) - P 3 19 * (PS12 P x)

/-- EKF/covariance.cpp:702 -/
def nx_2_19 (P : Mat K) (x : PredIn K) : K := P 0 19 * (PS12 P x) - P 1 19 * (PS13 P x) - P 10 19 * (PS9 P x) - P 11 19 * (PS34 P x) + P 12 19 * (PS6 P x) + P 2 19 + P 3 19 * (PS11 P x)

/-- EKF/covariance.cpp:703 -/
def nx_3_19 (P : Mat K) (x : PredIn K) : K := P 0 19 * (PS13 P x) + P 1 19 * (PS12 P x) + P 10 19 * (PS7 P x) - P 11 19 * (PS6 P x) - P 12 19 * (PS34 P x) - P 2 19 * (PS11 P x) + P 3 19

/-- EKF/covariance.cpp:704 -/
def nx_4_19 (P : Mat K) (x : PredIn K) : K := P 0 19 * (PS72 P x) + P 1 19 * (PS62 P x) - P 13 19 * (PS44 P x) + P 14 19 * (PS140 P x) - P 15 19 * (PS139 P x) + P 2 19 * (PS60 P x) - P 3 19 * (PS74 P x) + P 4 19

/-- EKF/covariance.cpp:705 -/
def nx_5_19 (P : Mat K) (x : PredIn K) : K := P 0 19 * (PS74 P x) - P 1 19 * (PS60 P x) - P 13 19 * (PS162 P x) - P 14 19 * (PS65 P x) + P 15 19 * (PS160 P x) + P 2 19 * (PS62 P x) + P 3 19 * (PS72 P x) + P 5 19

/-- EKF/covariance.cpp:706 -/
def nx_6_19 (P : Mat K) (x : PredIn K) : K := P 0 19 * (PS60 P x) + P 1 19 * (PS74 P x) + P 13 19 * (PS166 P x) - P 14 19 * (PS165 P x) - P 15 19 * (PS70 P x) - P 2 19 * (PS72 P x) + P 3 19 * (PS62 P x) + P 6 19

/-- EKF/covariance.cpp:707 -/
def nx_7_19 (P : Mat K) (x : PredIn K) : K := P 4 19 * x.dt + P 7 19

/-- EKF/covariance.cpp:708 -/
def nx_8_19 (P : Mat K) (x : PredIn K) : K := P 5 19 * x.dt + P 8 19

/-- EKF/covariance.cpp:709 -/
def nx_9_19 (P : Mat K) (x : PredIn K) : K := P 6 19 * x.dt + P 9 19

/-- EKF/covariance.cpp:710 -/
def nx_10_19 (P : Mat K) (x : PredIn K) : K := P 10 19

/-- EKF/covariance.cpp:711 -/
def nx_11_19 (P : Mat K) (x : PredIn K) : K := P 11 19

/-- EKF/covariance.cpp:712 -/
def nx_12_19 (P : Mat K) (x : PredIn K) : K := P 12 19

/-- EKF/covariance.cpp:713 -/
def nx_13_19 (P : Mat K) (x : PredIn K) : K := P 13 19

/-- EKF/covariance.cpp:714 -/
def nx_14_19 (P : Mat K) (x : PredIn K) : K := P 14 19

/-- EKF/covariance.cpp:715 -/
def nx_15_19 (P : Mat K) (x : PredIn K) : K := P 15 19

/-- EKF/covariance.cpp:716 -/
def nx_16_19 (P : Mat K) (x : PredIn K) : K := P 16 19

/-- EKF/covariance.cpp:717 -/
def nx_17_19 (P : Mat K) (x : PredIn K) : K := P 17 19

/-- EKF/covariance.cpp:718 -/
def nx_18_19 (P : Mat K) (x : PredIn K) : K := P 18 19

/-- EKF/covariance.cpp:719 -/
def nx_19_19 (P : Mat K) (x : PredIn K) : K := P 19 19

/-- EKF/covariance.cpp:720 -/
def nx_0_20 (P : Mat K) (x : PredIn K) : K := P 0 20 - P 1 20 * (PS11 P x) + P 10 20 * (PS6 P x) + P 11 20 * (PS7 P x) + P 12 20 * (PS9 P x) - P 2 20 * (PS12 P x) - P 3 20 * (PS13 P x)

/-- EKF/covariance.cpp:721 -/
def nx_1_20 (P : Mat K) (x : PredIn K) : K := P 0 20 * (PS11 P x) + P 1 20 - P 10 20 * (PS34 P x) + P 11 20 * (PS9 P x) - P 12 20 * (PS7 P x) + P 2 20 * (PS13 P x) - P 3 20 * (PS12 P x)

/-- EKF/covariance.cpp:722 -/
def nx_2_20 (P : Mat K) (x : PredIn K) : K := P 0 20 * (PS12 P x) - P 1 20 * (PS13 P x) - P 10 20 * (PS9 P x) - P 11 20 * (PS34 P x) + P 12 20 * (PS6 P x) + P 2 20 + P 3 20 * (PS11 P x)

/-- EKF/covariance.cpp:723 -/
def nx_3_20 (P : Mat K) (x : PredIn K) : K := P 0 20 * (PS13 P x) + P 1 20 * (PS12 P x) + P 10 20 * (PS7 P x) - P 11 20 * (PS6 P x) - P 12 20 * (PS34 P x) - P 2 20 * (PS11 P x) + P 3 20

/-- EKF/covariance.cpp:724 -/
def nx_4_20 (P : Mat K) (x : PredIn K) : K := P 0 20 * (PS72 P x) + P 1 20 * (PS62 P x) - P 13 20 * (PS44 P x) + P 14 20 * (PS140 P x) - P 15 20 * (PS139 P x) + P 2 20 * (PS60 P x) - P 3 20 * (PS74 P x) + P 4 20

/-- EKF/covariance.cpp:725 -/
def nx_5_20 (P : Mat K) (x : PredIn K) : K := P 0 20 * (PS74 P x) - P 1 20 * (PS60 P x) - P 13 20 * (PS162 P x) - P 14 20 * (PS65 P x) + P 15 20 * (PS160 P x) + P 2 20 * (PS62 P x) + P 3 20 * (PS72 P x) + P 5 20

/-- EKF/covariance.cpp:726 -/
def nx_6_20 (P : Mat K) (x : PredIn K) : K := P 0 20 * (PS60 P x) + P 1 20 * (PS74 P x) + P 13 20 * (PS166 P x) - P 14 20 * (PS165 P x) - P 15 20 * (PS70 P x) - P 2 20 * (PS72 P x) + P 3 20 * (PS62 P x) + P 6 20

/-- EKF/covariance.cpp:727 -/
def nx_7_20 (P : Mat K) (x : PredIn K) : K := P 4 20 * x.dt + P 7 20

/-- EKF/covariance.cpp:728 -/
def nx_8_20 (P : Mat K) (x : PredIn K) : K := P 5 20 * x.dt + P 8 20

/-- EKF/covariance.cpp:729 -/
def nx_9_20 (P : Mat K) (x : PredIn K) : K := P 6 20 * x.dt + P 9 20

/-- EKF/covariance.cpp:730 -/
def nx_10_20 (P : Mat K) (x : PredIn K) : K := P 10 20

/-- EKF/covariance.cpp:731 -/
def nx_11_20 (P : Mat K) (x : PredIn K) : K := P 11 20

/-- EKF/covariance.cpp:732 -/
def nx_12_20 (P : Mat K) (x : PredIn K) : K := P 12 20

/-- EKF/covariance.cpp:733 -/
def nx_13_20 (P : Mat K) (x : PredIn K) : K := P 13 20

/-- EKF/covariance.cpp:734 -/
def nx_14_20 (P : Mat K) (x : PredIn K) : K := P 14 20

/-- EKF/covariance.cpp:735 -/
def nx_15_20 (P : Mat K) (x : PredIn K) : K := P 15 20

/-- EKF/covariance.cpp:736 -/
def nx_16_20 (P : Mat K) (x : PredIn K) : K := P 16 20

/-- EKF/covariance.cpp:737 -/
def nx_17_20 (P : Mat K) (x : PredIn K) : K := P 17 20

/-- EKF/covariance.cpp:738 -/
def nx_18_20 (P : Mat K) (x : PredIn K) : K := P 18 20

/-- EKF/covariance.cpp:739 -/
def nx_19_20 (P : Mat K) (x : PredIn K) : K := P 19 20

/-- EKF/covariance.cpp:740 -/
def nx_20_20 (P : Mat K) (x : PredIn K) : K := P 20 20

/-- EKF/covariance.cpp:741 -/
def nx_0_21 (P : Mat K) (x : PredIn K) : K := P 0 21 - P 1 21 * (PS11 P x) + P 10 21 * (PS6 P x) + P 11 21 * (PS7 P x) + P 12 21 * (PS9 P x) - P 2 21 * (PS12 P x) - P 3 21 * (PS13 P x)

/-- EKF/covariance.cpp:742 -/
def nx_1_21 (P : Mat K) (x : PredIn K) : K := P 0 21 * (PS11 P x) + P 1 21 - P 10 21 * (PS34 P x) + P 11 21 * (PS9 P x) - P 12 21 * (PS7 P x) + P 2 21 * (PS13 P x) - P 3 21 * (PS12 P x)

/-- EKF/covariance.cpp:743 -/
def nx_2_21 (P : Mat K) (x : PredIn K) : K := P 0 21 * (PS12 P x) - P 1 21 * (PS13 P x) - P 10 21 * (PS9 P x) - P 11 21 * (PS34 P x) + P 12 21 * (PS6 P x) + P 2 21 + P 3 21 * (PS11 P x)

/-- EKF/covariance.cpp:744 -/
def nx_3_21 (P : Mat K) (x : PredIn K) : K := P 0 21 * (PS13 P x) + P 1 21 * (PS12 P x) + P 10 21 * (PS7 P x) - P 11 21 * (PS6 P x) - P 12 21 * (PS34 P x) - P 2 21 * (PS11 P x) + P 3 21

/-- EKF/covariance.cpp:745 -/
def nx_4_21 (P : Mat K) (x : PredIn K) : K := P 0 21 * (PS72 P x) + P 1 21 * (PS62 P x) - P 13 21 * (PS44 P x) + P 14 21 * (PS140 P x) - P 15 21 * (PS139 P x) + P 2 21 * (PS60 P x) - P 3 21 * (PS74 P x) + P 4 21

/-- EKF/covariance.cpp:746 -/
def nx_5_21 (P : Mat K) (x : PredIn K) : K := P 0 21 * (PS74 P x) - P 1 21 * (PS60 P x) - P 13 21 * (PS162 P x) - P 14 21 * (PS65 P x) + P 15 21 * (PS160 P x) + P 2 21 * (PS62 P x) + P 3 21 * (PS72 P x) + P 5 21

/-- EKF/covariance.cpp:747 -/
def nx_6_21 (P : Mat K) (x : PredIn K) : K := P 0 21 * (PS60 P x) + P 1 21 * (PS74 P x) + P 13 21 * (PS166 P x) - P 14 21 * (PS165 P x) - P 15 21 * (PS70 P x) - P 2 21 * (PS72 P x) + P 3 21 * (PS62 P x) + P 6 21

/-- EKF/covariance.cpp:748 -/
def nx_7_21 (P : Mat K) (x : PredIn K) : K := P 4 21 * x.dt + P 7 21

/-- EKF/covariance.cpp:749 -/
def nx_8_21 (P : Mat K) (x : PredIn K) : K := P 5 21 * x.dt + P 8 21

/-- EKF/covariance.cpp:750 -/
def nx_9_21 (P : Mat K) (x : PredIn K) : K := P 6 21 * x.dt + P 9 21

/-- EKF/covariance.cpp:751 -/
def nx_10_21 (P : Mat K) (x : PredIn K) : K := P 10 21

/-- EKF/covariance.cpp:752 -/
def nx_11_21 (P : Mat K) (x : PredIn K) : K := P 11 21

/-- EKF/covariance.cpp:753 -/
def nx_12_21 (P : Mat K) (x : PredIn K) : K := P 12 21

/-- EKF/covariance.cpp:754 -/
def nx_13_21 (P : Mat K) (x : PredIn K) : K := P 13 21

/-- EKF/covariance.cpp:755 -/
def nx_14_21 (P : Mat K) (x : PredIn K) : K := P 14 21

/-- EKF/covariance.cpp:756 -/
def nx_15_21 (P : Mat K) (x : PredIn K) : K := P 15 21

/-- EKF/covariance.cpp:757 -/
def nx_16_21 (P : Mat K) (x : PredIn K) : K := P 16 21

/-- EKF/covariance.cpp:758 -/
def nx_17_21 (P : Mat K) (x : PredIn K) : K := P 17 21

/-- EKF/covariance.cpp:759 -/
def nx_18_21 (P : Mat K) (x : PredIn K) : K := P 18 21

/-- EKF/covariance.cpp:760 -/
def nx_19_21 (P : Mat K) (x : PredIn K) : K := P 19 21

/-- EKF/covariance.cpp:761 -/
def nx_20_21 (P : Mat K) (x : PredIn K) : K := P 20 21

/-- EKF/covariance.cpp:762 -/
def nx_21_21 (P : Mat K) (x : PredIn K) : K := P 21 21

/-- EKF/covariance.cpp:775 -/
def nx_0_22 (P : Mat K) (x : PredIn K) : K := P 0 22 - P 1 22 * (PS11 P x) + P 10 22 * (PS6 P x) + P 11 22 * (PS7 P x) + P 12 22 * (PS9 P x) - P 2 22 * (PS12 P x) - P 3 22 * (PS13 P x)

/-- EKF/covariance.cpp:776 -/
def nx_1_22 (P : Mat K) (x : PredIn K) : K := P 0 22 * (PS11 P x) + P 1 22 - P 10 22 * (PS34 P x) + P 11 22 * (PS9 P x) - P 12 22 * (PS7 P x) + P 2 22 * (PS13 P x) - P 3 22 * (PS12 P x)

/-- EKF/covariance.cpp:777 -/
def nx_2_22 (P : Mat K) (x : PredIn K) : K := P 0 22 * (PS12 P x) - P 1 22 * (PS13 P x) - P 10 22 * (PS9 P x) - P 11 22 * (PS34 P x) + P 12 22 * (PS6 P x) + P 2 22 + P 3 22 * (PS11 P x)

/-- EKF/covariance.cpp:778 -/
def nx_3_22 (P : Mat K) (x : PredIn K) : K := P 0 22 * (PS13 P x) + P 1 22 * (PS12 P x) + P 10 22 * (PS7 P x) - P 11 22 * (PS6 P x) - P 12 22 * (PS34 P x) - P 2 22 * (PS11 P x) + P 3 22

/-- EKF/covariance.cpp:779 -/
def nx_4_22 (P : Mat K) (x : PredIn K) : K := P 0 22 * (PS72 P x) + P 1 22 * (PS62 P x) - P 13 22 * (PS44 P x) + P 14 22 * (PS140 P x) - P 15 22 * (PS139 P x) + P 2 22 * (PS60 P x) - P 3 22 * (PS74 P x) + P 4 22

/-- EKF/covariance.cpp:780 -/
def nx_5_22 (P : Mat K) (x : PredIn K) : K := P 0 22 * (PS74 P x) - P 1 22 * (PS60 P x) - P 13 22 * (PS162 P x) - P 14 22 * (PS65 P x) + P 15 22 * (PS160 P x) + P 2 22 * (PS62 P x) + P 3 22 * (PS72 P x) + P 5 22

/-- EKF/covariance.cpp:781 -/
def nx_6_22 (P : Mat K) (x : PredIn K) : K := P 0 22 * (PS60 P x) + P 1 22 * (PS74 P x) + P 13 22 * (PS166 P x) - P 14 22 * (PS165 P x) - P 15 22 * (PS70 P x) - P 2 22 * (PS72 P x) + P 3 22 * (PS62 P x) + P 6 22

/-- EKF/covariance.cpp:782 -/
def nx_7_22 (P : Mat K) (x : PredIn K) : K := P 4 22 * x.dt + P 7 22

/-- EKF/covariance.cpp:783 -/
def nx_8_22 (P : Mat K) (x : PredIn K) : K := P 5 22 * x.dt + P 8 22

/-- EKF/covariance.cpp:784 -/
def nx_9_22 (P : Mat K) (x : PredIn K) : K := P 6 22 * x.dt + P 9 22

/-- EKF/covariance.cpp:785 -/
def nx_10_22 (P : Mat K) (x : PredIn K) : K := P 10 22

/-- EKF/covariance.cpp:786 -/
def nx_11_22 (P : Mat K) (x : PredIn K) : K := P 11 22

/-- EKF/covariance.cpp:787 -/
def nx_12_22 (P : Mat K) (x : PredIn K) : K := P 12 22

/-- EKF/covariance.cpp:788 -/
def nx_13_22 (P : Mat K) (x : PredIn K) : K := P 13 22

/-- EKF/covariance.cpp:789 -/
def nx_14_22 (P : Mat K) (x : PredIn K) : K := P 14 22

/-- EKF/covariance.cpp:790 -/
def nx_15_22 (P : Mat K) (x : PredIn K) : K := P 15 22

/-- EKF/covariance.cpp:791 -/
def nx_16_22 (P : Mat K) (x : PredIn K) : K := P 16 22

/-- EKF/covariance.cpp:792 -/
def nx_17_22 (P : Mat K) (x : PredIn K) : K := P 17 22

/-- EKF/covariance.cpp:793 -/
def nx_18_22 (P : Mat K) (x : PredIn K) : K := P 18 22

/-- EKF/covariance.cpp:794 -/
def nx_19_22 (P : Mat K) (x : PredIn K) : K := P 19 22

/-- EKF/covariance.cpp:795 -/
def nx_20_22 (P : Mat K) (x : PredIn K) : K := P 20 22

/-- EKF/covariance.cpp:796 -/
def nx_21_22 (P : Mat K) (x : PredIn K) : K := P 21 22

/-- EKF/covariance.cpp:797 -/
def nx_22_22 (P : Mat K) (x : PredIn K) : K := P 22 22

/-- EKF/covariance.cpp:798 -/
def nx_0_23 (P : Mat K) (x : PredIn K) : K := P 0 23 - P 1 23 * (PS11 P x) + P 10 23 * (PS6 P x) + P 11 23 * (PS7 P x) + P 12 23 * (PS9 P x) - P 2 23 * (PS12 P x) - P 3 23 * (PS13 P x)

/-- EKF/covariance.cpp:799 -/
def nx_1_23 (P : Mat K) (x : PredIn K) : K := P 0 23 * (PS11 P x) + P 1 23 - P 10 23 * (PS34 P x) + P 11 23 * (PS9 P x) - P 12 23 * (PS7 P x) + P 2 23 * (PS13 P x) - P 3 23 * (PS12 P x)

/-- EKF/covariance.cpp:800 -/
def nx_2_23 (P : Mat K) (x : PredIn K) : K := P 0 23 * (PS12 P x) - P 1 23 * (PS13 P x) - P 10 23 * (PS9 P x) - P 11 23 * (PS34 P x) + P 12 23 * (PS6 P x) + P 2 23 + P 3 23 * (PS11 P x)

/-- EKF/covariance.cpp:801 -/
def nx_3_23 (P : Mat K) (x : PredIn K) : K := P 0 23 * (PS13 P x) + P 1 23 * (PS12 P x) + P 10 23 * (PS7 P x) - P 11 23 * (PS6 P x) - P 12 23 * (PS34 P x) - P 2 23 * (PS11 P x) + P 3 23

/-- EKF/covariance.cpp:802 -/
def nx_4_23 (P : Mat K) (x : PredIn K) : K := P 0 23 * (PS72 P x) + P 1 23 * (PS62 P x) - P 13 23 * (PS44 P x) + P 14 23 * (PS140 P x) - P 15 23 * (PS139 P x) + P 2 23 * (PS60 P x) - P 3 23 * (PS74 P x) + P 4 23

/-- EKF/covariance.cpp:803 -/
def nx_5_23 (P : Mat K) (x : PredIn K) : K := P 0 23 * (PS74 P x) - P 1 23 * (PS60 P x) - P 13 23 * (PS162 P x) - P 14 23 * (PS65 P x) + P 15 23 * (PS160 P x) + P 2 23 * (PS62 P x) + P 3 23 * (PS72 P x) + P 5 23

/-- EKF/covariance.cpp:804 -/
def nx_6_23 (P : Mat K) (x : PredIn K) : K := P 0 23 * (PS60 P x) + P 1 23 * (PS74 P x) + P 13 23 * (PS166 P x) - P 14 23 * (PS165 P x) - P 15 23 * (PS70 P x) - P 2 23 * (PS72 P x) + P 3 23 * (PS62 P x) + P 6 23

/-- EKF/covariance.cpp:805 -/
def nx_7_23 (P : Mat K) (x : PredIn K) : K := P 4 23 * x.dt + P 7 23

/-- EKF/covariance.cpp:806 -/
def nx_8_23 (P : Mat K) (x : PredIn K) : K := P 5 23 * x.dt + P 8 23

/-- EKF/covariance.cpp:807 -/
def nx_9_23 (P : Mat K) (x : PredIn K) : K := P 6 23 * x.dt + P 9 23

/-- EKF/covariance.cpp:808 -/
def nx_10_23 (P : Mat K) (x : PredIn K) : K := P 10 23

/-- EKF/covariance.cpp:809 -/
def nx_11_23 (P : Mat K) (x : PredIn K) : K := P 11 23

/-- EKF/covariance.cpp:810 -/
def nx_12_23 (P : Mat K) (x : PredIn K) : K := P 12 23

/-- EKF/covariance.cpp:811 -/
def nx_13_23 (P : Mat K) (x : PredIn K) : K := P 13 23

/-- EKF/covariance.cpp:812 -/
def nx_14_23 (P : Mat K) (x : PredIn K) : K := P 14 23

/-- EKF/covariance.cpp:813 -/
def nx_15_23 (P : Mat K) (x : PredIn K) : K := P 15 23

/-- EKF/covariance.cpp:814 -/
def nx_16_23 (P : Mat K) (x : PredIn K) : K := P 16 23

/-- EKF/covariance.cpp:815 -/
def nx_17_23 (P : Mat K) (x : PredIn K) : K := P 17 23

/-- EKF/covariance.cpp:816 -/
def nx_18_23 (P : Mat K) (x : PredIn K) : K := P 18 23

/-- EKF/covariance.cpp:817 -/
def nx_19_23 (P : Mat K) (x : PredIn K) : K := P 19 23

/-- EKF/covariance.cpp:818 -/
def nx_20_23 (P : Mat K) (x : PredIn K) : K := P 20 23

/-- EKF/covariance.cpp:819 -/
def nx_21_23 (P : Mat K) (x : PredIn K) : K := P 21 23

/-- EKF/covariance.cpp:820 -/
def nx_22_23 (P : Mat K) (x : PredIn K) : K := P 22 23

/-- EKF/covariance.cpp:821 -/
def nx_23_23 (P : Mat K) (x : PredIn K) : K := P 23 23

/-- column 0 of the upper triangle -/
def nxCol0 (P : Mat K) (x : PredIn K) : ℕ → K
  | 0 => nx_0_0 P x
  | _ => 0

/-- column 1 of the upper triangle -/
def nxCol1 (P : Mat K) (x : PredIn K) : ℕ → K
  | 0 => nx_0_1 P x
  | 1 => nx_1_1 P x
  | _ => 0

/-- column 2 of the upper triangle -/
def nxCol2 (P : Mat K) (x : PredIn K) : ℕ → K
  | 0 => nx_0_2 P x
  | 1 => nx_1_2 P x
  | 2 => nx_2_2 P x
  | _ => 0

/-- column 3 of the upper triangle -/
def nxCol3 (P : Mat K) (x : PredIn K) : ℕ → K
  | 0 => nx_0_3 P x
  | 1 => nx_1_3 P x
  | 2 => nx_2_3 P x
  | 3 => nx_3_3 P x
  | _ => 0

/-- column 4 of the upper triangle -/
def nxCol4 (P : Mat K) (x : PredIn K) : ℕ → K
  | 0 => nx_0_4 P x
  | 1 => nx_1_4 P x
  | 2 => nx_2_4 P x
  | 3 => nx_3_4 P x
  | 4 => nx_4_4 P x
  | _ => 0

/-- column 5 of the upper triangle -/
def nxCol5 (P : Mat K) (x : PredIn K) : ℕ → K
  | 0 => nx_0_5 P x
  | 1 => nx_1_5 P x
  | 2 => nx_2_5 P x
  | 3 => nx_3_5 P x
  | 4 => nx_4_5 P x
  | 5 => nx_5_5 P x
  | _ => 0

/-- column 6 of the upper triangle -/
def nxCol6 (P : Mat K) (x : PredIn K) : ℕ → K
  | 0 => nx_0_6 P x
  | 1 => nx_1_6 P x
  | 2 => nx_2_6 P x
  | 3 => nx_3_6 P x
  | 4 => nx_4_6 P x
  | 5 => nx_5_6 P x
  | 6 => nx_6_6 P x
  | _ => 0

/-- column 7 of the upper triangle -/
def nxCol7 (P : Mat K) (x : PredIn K) : ℕ → K
  | 0 => nx_0_7 P x
  | 1 => nx_1_7 P x
  | 2 => nx_2_7 P x
  | 3 => nx_3_7 P x
  | 4 => nx_4_7 P x
  | 5 => nx_5_7 P x
  | 6 => nx_6_7 P x
  | 7 => nx_7_7 P x
  | _ => 0

/-- column 8 of the upper triangle -/
def nxCol8 (P : Mat K) (x : PredIn K) : ℕ → K
  | 0 => nx_0_8 P x
  | 1 => nx_1_8 P x
  | 2 => nx_2_8 P x
  | 3 => nx_3_8 P x
  | 4 => nx_4_8 P x
  | 5 => nx_5_8 P x
  | 6 => nx_6_8 P x
  | 7 => nx_7_8 P x
  | 8 => nx_8_8 P x
  | _ => 0

/-- column 9 of the upper triangle -/
def nxCol9 (P : Mat K) (x : PredIn K) : ℕ → K
  | 0 => nx_0_9 P x
  | 1 => nx_1_9 P x
  | 2 => nx_2_9 P x
  | 3 => nx_3_9 P x
  | 4 => nx_4_9 P x
  | 5 => nx_5_9 P x
  | 6 => nx_6_9 P x
  | 7 => nx_7_9 P x
  | 8 => nx_8_9 P x
  | 9 => nx_9_9 P x
  | _ => 0

/-- column 10 of the upper triangle -/
def nxCol10 (P : Mat K) (x : PredIn K) : ℕ → K
  | 0 => nx_0_10 P x
  | 1 => nx_1_10 P x
  | 2 => nx_2_10 P x
  | 3 => nx_3_10 P x
  | 4 => nx_4_10 P x
  | 5 => nx_5_10 P x
  | 6 => nx_6_10 P x
  | 7 => nx_7_10 P x
  | 8 => nx_8_10 P x
  | 9 => nx_9_10 P x
  | 10 => nx_10_10 P x
  | _ => 0

/-- column 11 of the upper triangle -/
def nxCol11 (P : Mat K) (x : PredIn K) : ℕ → K
  | 0 => nx_0_11 P x
  | 1 => nx_1_11 P x
  | 2 => nx_2_11 P x
  | 3 => nx_3_11 P x
  | 4 => nx_4_11 P x
  | 5 => nx_5_11 P x
  | 6 => nx_6_11 P x
  | 7 => nx_7_11 P x
  | 8 => nx_8_11 P x
  | 9 => nx_9_11 P x
  | 10 => nx_10_11 P x
  | 11 => nx_11_11 P x
  | _ => 0

/-- column 12 of the upper triangle -/
def nxCol12 (P : Mat K) (x : PredIn K) : ℕ → K
  | 0 => nx_0_12 P x
  | 1 => nx_1_12 P x
  | 2 => nx_2_12 P x
  | 3 => nx_3_12 P x
  | 4 => nx_4_12 P x
  | 5 => nx_5_12 P x
  | 6 => nx_6_12 P x
  | 7 => nx_7_12 P x
  | 8 => nx_8_12 P x
  | 9 => nx_9_12 P x
  | 10 => nx_10_12 P x
  | 11 => nx_11_12 P x
  | 12 => nx_12_12 P x
  | _ => 0

/-- column 13 of the upper triangle -/
def nxCol13 (P : Mat K) (x : PredIn K) : ℕ → K
  | 0 => nx_0_13 P x
  | 1 => nx_1_13 P x
  | 2 => nx_2_13 P x
  | 3 => nx_3_13 P x
  | 4 => nx_4_13 P x
  | 5 => nx_5_13 P x
  | 6 => nx_6_13 P x
  | 7 => nx_7_13 P x
  | 8 => nx_8_13 P x
  | 9 => nx_9_13 P x
  | 10 => nx_10_13 P x
  | 11 => nx_11_13 P x
  | 12 => nx_12_13 P x
  | 13 => nx_13_13 P x
  | _ => 0

/-- column 14 of the upper triangle -/
def nxCol14 (P : Mat K) (x : PredIn K) : ℕ → K
  | 0 => nx_0_14 P x
  | 1 => nx_1_14 P x
  | 2 => nx_2_14 P x
  | 3 => nx_3_14 P x
  | 4 => nx_4_14 P x
  | 5 => nx_5_14 P x
  | 6 => nx_6_14 P x
  | 7 => nx_7_14 P x
  | 8 => nx_8_14 P x
  | 9 => nx_9_14 P x
  | 10 => nx_10_14 P x
  | 11 => nx_11_14 P x
  | 12 => nx_12_14 P x
  | 13 => nx_13_14 P x
  | 14 => nx_14_14 P x
  | _ => 0

/-- column 15 of the upper triangle -/
def nxCol15 (P : Mat K) (x : PredIn K) : ℕ → K
  | 0 => nx_0_15 P x
  | 1 => nx_1_15 P x
  | 2 => nx_2_15 P x
  | 3 => nx_3_15 P x
  | 4 => nx_4_15 P x
  | 5 => nx_5_15 P x
  | 6 => nx_6_15 P x
  | 7 => nx_7_15 P x
  | 8 => nx_8_15 P x
  | 9 => nx_9_15 P x
  | 10 => nx_10_15 P x
  | 11 => nx_11_15 P x
  | 12 => nx_12_15 P x
  | 13 => nx_13_15 P x
  | 14 => nx_14_15 P x
  | 15 => nx_15_15 P x
  | _ => 0

/-- column 16 of the upper triangle -/
def nxCol16 (P : Mat K) (x : PredIn K) : ℕ → K
  | 0 => nx_0_16 P x
  | 1 => nx_1_16 P x
  | 2 => nx_2_16 P x
  | 3 => nx_3_16 P x
  | 4 => nx_4_16 P x
  | 5 => nx_5_16 P x
  | 6 => nx_6_16 P x
  | 7 => nx_7_16 P x
  | 8 => nx_8_16 P x
  | 9 => nx_9_16 P x
  | 10 => nx_10_16 P x
  | 11 => nx_11_16 P x
  | 12 => nx_12_16 P x
  | 13 => nx_13_16 P x
  | 14 => nx_14_16 P x
  | 15 => nx_15_16 P x
  | 16 => nx_16_16 P x
  | _ => 0

/-- column 17 of the upper triangle -/
def nxCol17 (P : Mat K) (x : PredIn K) : ℕ → K
  | 0 => nx_0_17 P x
  | 1 => nx_1_17 P x
  | 2 => nx_2_17 P x
  | 3 => nx_3_17 P x
  | 4 => nx_4_17 P x
  | 5 => nx_5_17 P x
  | 6 => nx_6_17 P x
  | 7 => nx_7_17 P x
  | 8 => nx_8_17 P x
  | 9 => nx_9_17 P x
  | 10 => nx_10_17 P x
  | 11 => nx_11_17 P x
  | 12 => nx_12_17 P x
  | 13 => nx_13_17 P x
  | 14 => nx_14_17 P x
  | 15 => nx_15_17 P x
  | 16 => nx_16_17 P x
  | 17 => nx_17_17 P x
  | _ => 0

/-- column 18 of the upper triangle -/
def nxCol18 (P : Mat K) (x : PredIn K) : ℕ → K
  | 0 => nx_0_18 P x
  | 1 => nx_1_18 P x
  | 2 => nx_2_18 P x
  | 3 => nx_3_18 P x
  | 4 => nx_4_18 P x
  | 5 => nx_5_18 P x
  | 6 => nx_6_18 P x
  | 7 => nx_7_18 P x
  | 8 => nx_8_18 P x
  | 9 => nx_9_18 P x
  | 10 => nx_10_18 P x
  | 11 => nx_11_18 P x
  | 12 => nx_12_18 P x
  | 13 => nx_13_18 P x
  | 14 => nx_14_18 P x
  | 15 => nx_15_18 P x
  | 16 => nx_16_18 P x
  | 17 => nx_17_18 P x
  | 18 => nx_18_18 P x
  | _ => 0

/-- column 19 of the upper triangle -/
def nxCol19 (P : Mat K) (x : PredIn K) : ℕ → K
  | 0 => nx_0_19 P x
  | 1 => nx_1_19 P x
  | 2 => nx_2_19 P x
  | 3 => nx_3_19 P x
  | 4 => nx_4_19 P x
  | 5 => nx_5_19 P x
  | 6 => nx_6_19 P x
  | 7 => nx_7_19 P x
  | 8 => nx_8_19 P x
  | 9 => nx_9_19 P x
  | 10 => nx_10_19 P x
  | 11 => nx_11_19 P x
  | 12 => nx_12_19 P x
  | 13 => nx_13_19 P x
  | 14 => nx_14_19 P x
  | 15 => nx_15_19 P x
  | 16 => nx_16_19 P x
  | 17 => nx_17_19 P x
  | 18 => nx_18_19 P x
  | 19 => nx_19_19 P x
  | _ => 0

/-- column 20 of the upper triangle -/
def nxCol20 (P : Mat K) (x : PredIn K) : ℕ → K
  | 0 => nx_0_20 P x
  | 1 => nx_1_20 P x
  | 2 => nx_2_20 P x
  | 3 => nx_3_20 P x
  | 4 => nx_4_20 P x
  | 5 => nx_5_20 P x
  | 6 => nx_6_20 P x
  | 7 => nx_7_20 P x
  | 8 => nx_8_20 P x
  | 9 => nx_9_20 P x
  | 10 => nx_10_20 P x
  | 11 => nx_11_20 P x
  | 12 => nx_12_20 P x
  | 13 => nx_13_20 P x
  | 14 => nx_14_20 P x
  | 15 => nx_15_20 P x
  | 16 => nx_16_20 P x
  | 17 => nx_17_20 P x
  | 18 => nx_18_20 P x
  | 19 => nx_19_20 P x
  | 20 => nx_20_20 P x
  | _ => 0

/-- column 21 of the upper triangle -/
def nxCol21 (P : Mat K) (x : PredIn K) : ℕ → K
  | 0 => nx_0_21 P x
  | 1 => nx_1_21 P x
  | 2 => nx_2_21 P x
  | 3 => nx_3_21 P x
  | 4 => nx_4_21 P x
  | 5 => nx_5_21 P x
  | 6 => nx_6_21 P x
  | 7 => nx_7_21 P x
  | 8 => nx_8_21 P x
  | 9 => nx_9_21 P x
  | 10 => nx_10_21 P x
  | 11 => nx_11_21 P x
  | 12 => nx_12_21 P x
  | 13 => nx_13_21 P x
  | 14 => nx_14_21 P x
  | 15 => nx_15_21 P x
  | 16 => nx_16_21 P x
  | 17 => nx_17_21 P x
  | 18 => nx_18_21 P x
  | 19 => nx_19_21 P x
  | 20 => nx_20_21 P x
  | 21 => nx_21_21 P x
  | _ => 0

/-- column 22 of the upper triangle -/
def nxCol22 (P : Mat K) (x : PredIn K) : ℕ → K
  | 0 => nx_0_22 P x
  | 1 => nx_1_22 P x
  | 2 => nx_2_22 P x
  | 3 => nx_3_22 P x
  | 4 => nx_4_22 P x
  | 5 => nx_5_22 P x
  | 6 => nx_6_22 P x
  | 7 => nx_7_22 P x
  | 8 => nx_8_22 P x
  | 9 => nx_9_22 P x
  | 10 => nx_10_22 P x
  | 11 => nx_11_22 P x
  | 12 => nx_12_22 P x
  | 13 => nx_13_22 P x
  | 14 => nx_14_22 P x
  | 15 => nx_15_22 P x
  | 16 => nx_16_22 P x
  | 17 => nx_17_22 P x
  | 18 => nx_18_22 P x
  | 19 => nx_19_22 P x
  | 20 => nx_20_22 P x
  | 21 => nx_21_22 P x
  | 22 => nx_22_22 P x
  | _ => 0

/-- column 23 of the upper triangle -/
def nxCol23 (P : Mat K) (x : PredIn K) : ℕ → K
  | 0 => nx_0_23 P x
  | 1 => nx_1_23 P x
  | 2 => nx_2_23 P x
  | 3 => nx_3_23 P x
  | 4 => nx_4_23 P x
  | 5 => nx_5_23 P x
  | 6 => nx_6_23 P x
  | 7 => nx_7_23 P x
  | 8 => nx_8_23 P x
  | 9 => nx_9_23 P x
  | 10 => nx_10_23 P x
  | 11 => nx_11_23 P x
  | 12 => nx_12_23 P x
  | 13 => nx_13_23 P x
  | 14 => nx_14_23 P x
  | 15 => nx_15_23 P x
  | 16 => nx_16_23 P x
  | 17 => nx_17_23 P x
  | 18 => nx_18_23 P x
  | 19 => nx_19_23 P x
  | 20 => nx_20_23 P x
  | 21 => nx_21_23 P x
  | 22 => nx_22_23 P x
  | 23 => nx_23_23 P x
  | _ => 0

/-- all transcribed entries, by row and column -/
def nxAll (P : Mat K) (x : PredIn K) (i : ℕ) : ℕ → K
  | 0 => nxCol0 P x i
  | 1 => nxCol1 P x i
  | 2 => nxCol2 P x i
  | 3 => nxCol3 P x i
  | 4 => nxCol4 P x i
  | 5 => nxCol5 P x i
  | 6 => nxCol6 P x i
  | 7 => nxCol7 P x i
  | 8 => nxCol8 P x i
  | 9 => nxCol9 P x i
  | 10 => nxCol10 P x i
  | 11 => nxCol11 P x i
  | 12 => nxCol12 P x i
  | 13 => nxCol13 P x i
  | 14 => nxCol14 P x i
  | 15 => nxCol15 P x i
  | 16 => nxCol16 P x i
  | 17 => nxCol17 P x i
  | 18 => nxCol18 P x i
  | 19 => nxCol19 P x i
  | 20 => nxCol20 P x i
  | 21 => nxCol21 P x i
  | 22 => nxCol22 P x i
  | 23 => nxCol23 P x i
  | _ => 0

end

end Ecl.Cov
