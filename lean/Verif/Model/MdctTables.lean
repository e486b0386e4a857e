import Verif.Model.Mdct
import Verif.Model.LtpfTables

/-
Tables of the transforms, `src/tables.c`; generated by tools/genmdct.py. Do not edit.

Values are integers, divided by a power of ten.
-/

set_option maxRecDepth 100000

namespace LC3

/-- `fft_twiddles_15`, src/tables.c:85-103, divided by `10^8`. -/
def twBf3_15 : List Int := [
  100000000, 0, 100000000, 0, 91354546, -40673664, 66913061, -74314483, 66913061, -74314483, -10452846, -99452190,
  30901699, -95105652, -80901699, -58778525, -10452846, -99452190, -97814760, 20791169, -50000000, -86602540,
  -50000000, 86602540, -80901699, -58778525, 30901699, 95105652, -97814760, -20791169, 91354546, 40673664, -97814760,
  20791169, 91354546, -40673664, -80901699, 58778525, 30901699, -95105652, -50000000, 86602540, -50000000, -86602540,
  -10452846, 99452190, -97814760, -20791169, 30901699, 95105652, -80901699, 58778525, 66913061, 74314483, -10452846,
  99452190, 91354546, 40673664, 66913061, 74314483]

/-- `fft_twiddles_45`, src/tables.c:105-153, divided by `10^9`. -/
def twBf3_45 : List Int := [
  1000000000, 0, 1000000000, 0, 990268070, -139173100, 961261700, -275637360, 961261700, -275637360, 848048100,
  -529919260, 913545460, -406736640, 669130610, -743144830, 848048100, -529919260, 438371150, -898794050, 766044440,
  -642787610, 173648180, -984807750, 669130610, -743144830, -104528460, -994521900, 559192900, -829037570, -374606590,
  -927183850, 438371150, -898794050, -615661480, -788010750, 309016990, -951056520, -809016990, -587785250, 173648180,
  -984807750, -939692620, -342020140, 34899497, -999390830, -997564050, -69756474, -104528460, -994521900, -978147600,
  207911690, -241921900, -970295730, -882947590, 469471560, -374606590, -927183850, -719339800, 694658370, -500000000,
  -866025400, -500000000, 866025400, -615661480, -788010750, -241921900, 970295730, -719339800, -694658370, 34899497,
  999390830, -809016990, -587785250, 309016990, 951056520, -882947590, -469471560, 559192900, 829037570, -939692620,
  -342020140, 766044440, 642787610, -978147600, -207911690, 913545460, 406736640, -997564050, -69756474, 990268070,
  139173100, -997564050, 69756474, 990268070, -139173100, -978147600, 207911690, 913545460, -406736640, -939692620,
  342020140, 766044440, -642787610, -882947590, 469471560, 559192900, -829037570, -809016990, 587785250, 309016990,
  -951056520, -719339800, 694658370, 34899497, -999390830, -615661480, 788010750, -241921900, -970295730, -500000000,
  866025400, -500000000, -866025400, -374606590, 927183850, -719339800, -694658370, -241921900, 970295730, -882947590,
  -469471560, -104528460, 994521900, -978147600, -207911690, 34899497, 999390830, -997564050, 69756474, 173648180,
  984807750, -939692620, 342020140, 309016990, 951056520, -809016990, 587785250, 438371150, 898794050, -615661480,
  788010750, 559192900, 829037570, -374606590, 927183850, 669130610, 743144830, -104528460, 994521900, 766044440,
  642787610, 173648180, 984807750, 848048100, 529919260, 438371150, 898794050, 913545460, 406736640, 669130610,
  743144830, 961261700, 275637360, 848048100, 529919260, 990268070, 139173100, 961261700, 275637360]

/-- `fft_twiddles_10`, src/tables.c:166-172, divided by `10^8`. -/
def twBf2_10 : List Int := [
  100000000, 0, 80901699, -58778525, 30901699, -95105652, -30901699, -95105652, -80901699, -58778525]

/-- `fft_twiddles_20`, src/tables.c:174-182, divided by `10^23`. -/
def twBf2_20 : List Int := [
  100000000000000000000000, 0, 95105652000000000000000, -30901699000000000000000, 80901699000000000000000,
  -58778525000000000000000, 58778525000000000000000, -80901699000000000000000, 30901699000000000000000,
  -95105652000000000000000, 6123234, -100000000000000000000000, -30901699000000000000000, -95105652000000000000000,
  -58778525000000000000000, -80901699000000000000000, -80901699000000000000000, -58778525000000000000000,
  -95105652000000000000000, -30901699000000000000000]

/-- `fft_twiddles_30`, src/tables.c:184-195, divided by `10^8`. -/
def twBf2_30 : List Int := [
  100000000, 0, 97814760, -20791169, 91354546, -40673664, 80901699, -58778525, 66913061, -74314483, 50000000,
  -86602540, 30901699, -95105652, 10452846, -99452190, -10452846, -99452190, -30901699, -95105652, -50000000,
  -86602540, -66913061, -74314483, -80901699, -58778525, -91354546, -40673664, -97814760, -20791169]

/-- `fft_twiddles_40`, src/tables.c:197-210, divided by `10^23`. -/
def twBf2_40 : List Int := [
  100000000000000000000000, 0, 98768834000000000000000, -15643447000000000000000, 95105652000000000000000,
  -30901699000000000000000, 89100652000000000000000, -45399050000000000000000, 80901699000000000000000,
  -58778525000000000000000, 70710678000000000000000, -70710678000000000000000, 58778525000000000000000,
  -80901699000000000000000, 45399050000000000000000, -89100652000000000000000, 30901699000000000000000,
  -95105652000000000000000, 15643447000000000000000, -98768834000000000000000, 6123234, -100000000000000000000000,
  -15643447000000000000000, -98768834000000000000000, -30901699000000000000000, -95105652000000000000000,
  -45399050000000000000000, -89100652000000000000000, -58778525000000000000000, -80901699000000000000000,
  -70710678000000000000000, -70710678000000000000000, -80901699000000000000000, -58778525000000000000000,
  -89100652000000000000000, -45399050000000000000000, -95105652000000000000000, -30901699000000000000000,
  -98768834000000000000000, -15643447000000000000000]

/-- `fft_twiddles_60`, src/tables.c:212-230, divided by `10^23`. -/
def twBf2_60 : List Int := [
  100000000000000000000000, 0, 99452190000000000000000, -10452846000000000000000, 97814760000000000000000,
  -20791169000000000000000, 95105652000000000000000, -30901699000000000000000, 91354546000000000000000,
  -40673664000000000000000, 86602540000000000000000, -50000000000000000000000, 80901699000000000000000,
  -58778525000000000000000, 74314483000000000000000, -66913061000000000000000, 66913061000000000000000,
  -74314483000000000000000, 58778525000000000000000, -80901699000000000000000, 50000000000000000000000,
  -86602540000000000000000, 40673664000000000000000, -91354546000000000000000, 30901699000000000000000,
  -95105652000000000000000, 20791169000000000000000, -97814760000000000000000, 10452846000000000000000,
  -99452190000000000000000, 28327694, -100000000000000000000000, -10452846000000000000000, -99452190000000000000000,
  -20791169000000000000000, -97814760000000000000000, -30901699000000000000000, -95105652000000000000000,
  -40673664000000000000000, -91354546000000000000000, -50000000000000000000000, -86602540000000000000000,
  -58778525000000000000000, -80901699000000000000000, -66913061000000000000000, -74314483000000000000000,
  -74314483000000000000000, -66913061000000000000000, -80901699000000000000000, -58778525000000000000000,
  -86602540000000000000000, -50000000000000000000000, -91354546000000000000000, -40673664000000000000000,
  -95105652000000000000000, -30901699000000000000000, -97814760000000000000000, -20791169000000000000000,
  -99452190000000000000000, -10452846000000000000000]

/-- `fft_twiddles_80`, src/tables.c:232-255, divided by `10^23`. -/
def twBf2_80 : List Int := [
  100000000000000000000000, 0, 99691733000000000000000, -7845909600000000000000, 98768834000000000000000,
  -15643447000000000000000, 97236992000000000000000, -23344536000000000000000, 95105652000000000000000,
  -30901699000000000000000, 92387953000000000000000, -38268343000000000000000, 89100652000000000000000,
  -45399050000000000000000, 85264016000000000000000, -52249856000000000000000, 80901699000000000000000,
  -58778525000000000000000, 76040597000000000000000, -64944805000000000000000, 70710678000000000000000,
  -70710678000000000000000, 64944805000000000000000, -76040597000000000000000, 58778525000000000000000,
  -80901699000000000000000, 52249856000000000000000, -85264016000000000000000, 45399050000000000000000,
  -89100652000000000000000, 38268343000000000000000, -92387953000000000000000, 30901699000000000000000,
  -95105652000000000000000, 23344536000000000000000, -97236992000000000000000, 15643447000000000000000,
  -98768834000000000000000, 7845909600000000000000, -99691733000000000000000, 6123234, -100000000000000000000000,
  -7845909600000000000000, -99691733000000000000000, -15643447000000000000000, -98768834000000000000000,
  -23344536000000000000000, -97236992000000000000000, -30901699000000000000000, -95105652000000000000000,
  -38268343000000000000000, -92387953000000000000000, -45399050000000000000000, -89100652000000000000000,
  -52249856000000000000000, -85264016000000000000000, -58778525000000000000000, -80901699000000000000000,
  -64944805000000000000000, -76040597000000000000000, -70710678000000000000000, -70710678000000000000000,
  -76040597000000000000000, -64944805000000000000000, -80901699000000000000000, -58778525000000000000000,
  -85264016000000000000000, -52249856000000000000000, -89100652000000000000000, -45399050000000000000000,
  -92387953000000000000000, -38268343000000000000000, -95105652000000000000000, -30901699000000000000000,
  -97236992000000000000000, -23344536000000000000000, -98768834000000000000000, -15643447000000000000000,
  -99691733000000000000000, -7845909600000000000000]

/-- `fft_twiddles_90`, src/tables.c:257-283, divided by `10^9`. -/
def twBf2_90 : List Int := [
  1000000000, 0, 997564050, -69756474, 990268070, -139173100, 978147600, -207911690, 961261700, -275637360, 939692620,
  -342020140, 913545460, -406736640, 882947590, -469471560, 848048100, -529919260, 809016990, -587785250, 766044440,
  -642787610, 719339800, -694658370, 669130610, -743144830, 615661480, -788010750, 559192900, -829037570, 500000000,
  -866025400, 438371150, -898794050, 374606590, -927183850, 309016990, -951056520, 241921900, -970295730, 173648180,
  -984807750, 104528460, -994521900, 34899497, -999390830, -34899497, -999390830, -104528460, -994521900, -173648180,
  -984807750, -241921900, -970295730, -309016990, -951056520, -374606590, -927183850, -438371150, -898794050,
  -500000000, -866025400, -559192900, -829037570, -615661480, -788010750, -669130610, -743144830, -719339800,
  -694658370, -766044440, -642787610, -809016990, -587785250, -848048100, -529919260, -882947590, -469471560,
  -913545460, -406736640, -939692620, -342020140, -961261700, -275637360, -978147600, -207911690, -990268070,
  -139173100, -997564050, -69756474]

/-- `fft_twiddles_120`, src/tables.c:285-318, divided by `10^23`. -/
def twBf2_120 : List Int := [
  100000000000000000000000, 0, 99862953000000000000000, -5233595600000000000000, 99452190000000000000000,
  -10452846000000000000000, 98768834000000000000000, -15643447000000000000000, 97814760000000000000000,
  -20791169000000000000000, 96592583000000000000000, -25881905000000000000000, 95105652000000000000000,
  -30901699000000000000000, 93358043000000000000000, -35836795000000000000000, 91354546000000000000000,
  -40673664000000000000000, 89100652000000000000000, -45399050000000000000000, 86602540000000000000000,
  -50000000000000000000000, 83867057000000000000000, -54463904000000000000000, 80901699000000000000000,
  -58778525000000000000000, 77714596000000000000000, -62932039000000000000000, 74314483000000000000000,
  -66913061000000000000000, 70710678000000000000000, -70710678000000000000000, 66913061000000000000000,
  -74314483000000000000000, 62932039000000000000000, -77714596000000000000000, 58778525000000000000000,
  -80901699000000000000000, 54463904000000000000000, -83867057000000000000000, 50000000000000000000000,
  -86602540000000000000000, 45399050000000000000000, -89100652000000000000000, 40673664000000000000000,
  -91354546000000000000000, 35836795000000000000000, -93358043000000000000000, 30901699000000000000000,
  -95105652000000000000000, 25881905000000000000000, -96592583000000000000000, 20791169000000000000000,
  -97814760000000000000000, 15643447000000000000000, -98768834000000000000000, 10452846000000000000000,
  -99452190000000000000000, 5233595600000000000000, -99862953000000000000000, 28327694, -100000000000000000000000,
  -5233595600000000000000, -99862953000000000000000, -10452846000000000000000, -99452190000000000000000,
  -15643447000000000000000, -98768834000000000000000, -20791169000000000000000, -97814760000000000000000,
  -25881905000000000000000, -96592583000000000000000, -30901699000000000000000, -95105652000000000000000,
  -35836795000000000000000, -93358043000000000000000, -40673664000000000000000, -91354546000000000000000,
  -45399050000000000000000, -89100652000000000000000, -50000000000000000000000, -86602540000000000000000,
  -54463904000000000000000, -83867057000000000000000, -58778525000000000000000, -80901699000000000000000,
  -62932039000000000000000, -77714596000000000000000, -66913061000000000000000, -74314483000000000000000,
  -70710678000000000000000, -70710678000000000000000, -74314483000000000000000, -66913061000000000000000,
  -77714596000000000000000, -62932039000000000000000, -80901699000000000000000, -58778525000000000000000,
  -83867057000000000000000, -54463904000000000000000, -86602540000000000000000, -50000000000000000000000,
  -89100652000000000000000, -45399050000000000000000, -91354546000000000000000, -40673664000000000000000,
  -93358043000000000000000, -35836795000000000000000, -95105652000000000000000, -30901699000000000000000,
  -96592583000000000000000, -25881905000000000000000, -97814760000000000000000, -20791169000000000000000,
  -98768834000000000000000, -15643447000000000000000, -99452190000000000000000, -10452846000000000000000,
  -99862953000000000000000, -5233595600000000000000]

/-- `fft_twiddles_160`, src/tables.c:320-363, divided by `10^23`. -/
def twBf2_160 : List Int := [
  100000000000000000000000, 0, 99922904000000000000000, -3925981600000000000000, 99691733000000000000000,
  -7845909600000000000000, 99306846000000000000000, -11753740000000000000000, 98768834000000000000000,
  -15643447000000000000000, 98078528000000000000000, -19509032000000000000000, 97236992000000000000000,
  -23344536000000000000000, 96245524000000000000000, -27144045000000000000000, 95105652000000000000000,
  -30901699000000000000000, 93819134000000000000000, -34611706000000000000000, 92387953000000000000000,
  -38268343000000000000000, 90814317000000000000000, -41865974000000000000000, 89100652000000000000000,
  -45399050000000000000000, 87249601000000000000000, -48862124000000000000000, 85264016000000000000000,
  -52249856000000000000000, 83146961000000000000000, -55557023000000000000000, 80901699000000000000000,
  -58778525000000000000000, 78531693000000000000000, -61909395000000000000000, 76040597000000000000000,
  -64944805000000000000000, 73432251000000000000000, -67880075000000000000000, 70710678000000000000000,
  -70710678000000000000000, 67880075000000000000000, -73432251000000000000000, 64944805000000000000000,
  -76040597000000000000000, 61909395000000000000000, -78531693000000000000000, 58778525000000000000000,
  -80901699000000000000000, 55557023000000000000000, -83146961000000000000000, 52249856000000000000000,
  -85264016000000000000000, 48862124000000000000000, -87249601000000000000000, 45399050000000000000000,
  -89100652000000000000000, 41865974000000000000000, -90814317000000000000000, 38268343000000000000000,
  -92387953000000000000000, 34611706000000000000000, -93819134000000000000000, 30901699000000000000000,
  -95105652000000000000000, 27144045000000000000000, -96245524000000000000000, 23344536000000000000000,
  -97236992000000000000000, 19509032000000000000000, -98078528000000000000000, 15643447000000000000000,
  -98768834000000000000000, 11753740000000000000000, -99306846000000000000000, 7845909600000000000000,
  -99691733000000000000000, 3925981600000000000000, -99922904000000000000000, 6123234, -100000000000000000000000,
  -3925981600000000000000, -99922904000000000000000, -7845909600000000000000, -99691733000000000000000,
  -11753740000000000000000, -99306846000000000000000, -15643447000000000000000, -98768834000000000000000,
  -19509032000000000000000, -98078528000000000000000, -23344536000000000000000, -97236992000000000000000,
  -27144045000000000000000, -96245524000000000000000, -30901699000000000000000, -95105652000000000000000,
  -34611706000000000000000, -93819134000000000000000, -38268343000000000000000, -92387953000000000000000,
  -41865974000000000000000, -90814317000000000000000, -45399050000000000000000, -89100652000000000000000,
  -48862124000000000000000, -87249601000000000000000, -52249856000000000000000, -85264016000000000000000,
  -55557023000000000000000, -83146961000000000000000, -58778525000000000000000, -80901699000000000000000,
  -61909395000000000000000, -78531693000000000000000, -64944805000000000000000, -76040597000000000000000,
  -67880075000000000000000, -73432251000000000000000, -70710678000000000000000, -70710678000000000000000,
  -73432251000000000000000, -67880075000000000000000, -76040597000000000000000, -64944805000000000000000,
  -78531693000000000000000, -61909395000000000000000, -80901699000000000000000, -58778525000000000000000,
  -83146961000000000000000, -55557023000000000000000, -85264016000000000000000, -52249856000000000000000,
  -87249601000000000000000, -48862124000000000000000, -89100652000000000000000, -45399050000000000000000,
  -90814317000000000000000, -41865974000000000000000, -92387953000000000000000, -38268343000000000000000,
  -93819134000000000000000, -34611706000000000000000, -95105652000000000000000, -30901699000000000000000,
  -96245524000000000000000, -27144045000000000000000, -97236992000000000000000, -23344536000000000000000,
  -98078528000000000000000, -19509032000000000000000, -98768834000000000000000, -15643447000000000000000,
  -99306846000000000000000, -11753740000000000000000, -99691733000000000000000, -7845909600000000000000,
  -99922904000000000000000, -3925981600000000000000]

/-- `fft_twiddles_180`, src/tables.c:365-413, divided by `10^23`. -/
def twBf2_180 : List Int := [
  100000000000000000000000, 0, 99939083000000000000000, -3489949700000000000000, 99756405000000000000000,
  -6975647400000000000000, 99452190000000000000000, -10452846000000000000000, 99026807000000000000000,
  -13917310000000000000000, 98480775000000000000000, -17364818000000000000000, 97814760000000000000000,
  -20791169000000000000000, 97029573000000000000000, -24192190000000000000000, 96126170000000000000000,
  -27563736000000000000000, 95105652000000000000000, -30901699000000000000000, 93969262000000000000000,
  -34202014000000000000000, 92718385000000000000000, -37460659000000000000000, 91354546000000000000000,
  -40673664000000000000000, 89879405000000000000000, -43837115000000000000000, 88294759000000000000000,
  -46947156000000000000000, 86602540000000000000000, -50000000000000000000000, 84804810000000000000000,
  -52991926000000000000000, 82903757000000000000000, -55919290000000000000000, 80901699000000000000000,
  -58778525000000000000000, 78801075000000000000000, -61566148000000000000000, 76604444000000000000000,
  -64278761000000000000000, 74314483000000000000000, -66913061000000000000000, 71933980000000000000000,
  -69465837000000000000000, 69465837000000000000000, -71933980000000000000000, 66913061000000000000000,
  -74314483000000000000000, 64278761000000000000000, -76604444000000000000000, 61566148000000000000000,
  -78801075000000000000000, 58778525000000000000000, -80901699000000000000000, 55919290000000000000000,
  -82903757000000000000000, 52991926000000000000000, -84804810000000000000000, 50000000000000000000000,
  -86602540000000000000000, 46947156000000000000000, -88294759000000000000000, 43837115000000000000000,
  -89879405000000000000000, 40673664000000000000000, -91354546000000000000000, 37460659000000000000000,
  -92718385000000000000000, 34202014000000000000000, -93969262000000000000000, 30901699000000000000000,
  -95105652000000000000000, 27563736000000000000000, -96126170000000000000000, 24192190000000000000000,
  -97029573000000000000000, 20791169000000000000000, -97814760000000000000000, 17364818000000000000000,
  -98480775000000000000000, 13917310000000000000000, -99026807000000000000000, 10452846000000000000000,
  -99452190000000000000000, 6975647400000000000000, -99756405000000000000000, 3489949700000000000000,
  -99939083000000000000000, 6123234, -100000000000000000000000, -3489949700000000000000, -99939083000000000000000,
  -6975647400000000000000, -99756405000000000000000, -10452846000000000000000, -99452190000000000000000,
  -13917310000000000000000, -99026807000000000000000, -17364818000000000000000, -98480775000000000000000,
  -20791169000000000000000, -97814760000000000000000, -24192190000000000000000, -97029573000000000000000,
  -27563736000000000000000, -96126170000000000000000, -30901699000000000000000, -95105652000000000000000,
  -34202014000000000000000, -93969262000000000000000, -37460659000000000000000, -92718385000000000000000,
  -40673664000000000000000, -91354546000000000000000, -43837115000000000000000, -89879405000000000000000,
  -46947156000000000000000, -88294759000000000000000, -50000000000000000000000, -86602540000000000000000,
  -52991926000000000000000, -84804810000000000000000, -55919290000000000000000, -82903757000000000000000,
  -58778525000000000000000, -80901699000000000000000, -61566148000000000000000, -78801075000000000000000,
  -64278761000000000000000, -76604444000000000000000, -66913061000000000000000, -74314483000000000000000,
  -69465837000000000000000, -71933980000000000000000, -71933980000000000000000, -69465837000000000000000,
  -74314483000000000000000, -66913061000000000000000, -76604444000000000000000, -64278761000000000000000,
  -78801075000000000000000, -61566148000000000000000, -80901699000000000000000, -58778525000000000000000,
  -82903757000000000000000, -55919290000000000000000, -84804810000000000000000, -52991926000000000000000,
  -86602540000000000000000, -50000000000000000000000, -88294759000000000000000, -46947156000000000000000,
  -89879405000000000000000, -43837115000000000000000, -91354546000000000000000, -40673664000000000000000,
  -92718385000000000000000, -37460659000000000000000, -93969262000000000000000, -34202014000000000000000,
  -95105652000000000000000, -30901699000000000000000, -96126170000000000000000, -27563736000000000000000,
  -97029573000000000000000, -24192190000000000000000, -97814760000000000000000, -20791169000000000000000,
  -98480775000000000000000, -17364818000000000000000, -99026807000000000000000, -13917310000000000000000,
  -99452190000000000000000, -10452846000000000000000, -99756405000000000000000, -6975647400000000000000,
  -99939083000000000000000, -3489949700000000000000]

/-- `fft_twiddles_240`, src/tables.c:415-478, divided by `10^23`. -/
def twBf2_240 : List Int := [
  100000000000000000000000, 0, 99965732000000000000000, -2617694800000000000000, 99862953000000000000000,
  -5233595600000000000000, 99691733000000000000000, -7845909600000000000000, 99452190000000000000000,
  -10452846000000000000000, 99144486000000000000000, -13052619000000000000000, 98768834000000000000000,
  -15643447000000000000000, 98325491000000000000000, -18223553000000000000000, 97814760000000000000000,
  -20791169000000000000000, 97236992000000000000000, -23344536000000000000000, 96592583000000000000000,
  -25881905000000000000000, 95881973000000000000000, -28401534000000000000000, 95105652000000000000000,
  -30901699000000000000000, 94264149000000000000000, -33380686000000000000000, 93358043000000000000000,
  -35836795000000000000000, 92387953000000000000000, -38268343000000000000000, 91354546000000000000000,
  -40673664000000000000000, 90258528000000000000000, -43051110000000000000000, 89100652000000000000000,
  -45399050000000000000000, 87881711000000000000000, -47715876000000000000000, 86602540000000000000000,
  -50000000000000000000000, 85264016000000000000000, -52249856000000000000000, 83867057000000000000000,
  -54463904000000000000000, 82412619000000000000000, -56640624000000000000000, 80901699000000000000000,
  -58778525000000000000000, 79335334000000000000000, -60876143000000000000000, 77714596000000000000000,
  -62932039000000000000000, 76040597000000000000000, -64944805000000000000000, 74314483000000000000000,
  -66913061000000000000000, 72537437000000000000000, -68835458000000000000000, 70710678000000000000000,
  -70710678000000000000000, 68835458000000000000000, -72537437000000000000000, 66913061000000000000000,
  -74314483000000000000000, 64944805000000000000000, -76040597000000000000000, 62932039000000000000000,
  -77714596000000000000000, 60876143000000000000000, -79335334000000000000000, 58778525000000000000000,
  -80901699000000000000000, 56640624000000000000000, -82412619000000000000000, 54463904000000000000000,
  -83867057000000000000000, 52249856000000000000000, -85264016000000000000000, 50000000000000000000000,
  -86602540000000000000000, 47715876000000000000000, -87881711000000000000000, 45399050000000000000000,
  -89100652000000000000000, 43051110000000000000000, -90258528000000000000000, 40673664000000000000000,
  -91354546000000000000000, 38268343000000000000000, -92387953000000000000000, 35836795000000000000000,
  -93358043000000000000000, 33380686000000000000000, -94264149000000000000000, 30901699000000000000000,
  -95105652000000000000000, 28401534000000000000000, -95881973000000000000000, 25881905000000000000000,
  -96592583000000000000000, 23344536000000000000000, -97236992000000000000000, 20791169000000000000000,
  -97814760000000000000000, 18223553000000000000000, -98325491000000000000000, 15643447000000000000000,
  -98768834000000000000000, 13052619000000000000000, -99144486000000000000000, 10452846000000000000000,
  -99452190000000000000000, 7845909600000000000000, -99691733000000000000000, 5233595600000000000000,
  -99862953000000000000000, 2617694800000000000000, -99965732000000000000000, 28327694, -100000000000000000000000,
  -2617694800000000000000, -99965732000000000000000, -5233595600000000000000, -99862953000000000000000,
  -7845909600000000000000, -99691733000000000000000, -10452846000000000000000, -99452190000000000000000,
  -13052619000000000000000, -99144486000000000000000, -15643447000000000000000, -98768834000000000000000,
  -18223553000000000000000, -98325491000000000000000, -20791169000000000000000, -97814760000000000000000,
  -23344536000000000000000, -97236992000000000000000, -25881905000000000000000, -96592583000000000000000,
  -28401534000000000000000, -95881973000000000000000, -30901699000000000000000, -95105652000000000000000,
  -33380686000000000000000, -94264149000000000000000, -35836795000000000000000, -93358043000000000000000,
  -38268343000000000000000, -92387953000000000000000, -40673664000000000000000, -91354546000000000000000,
  -43051110000000000000000, -90258528000000000000000, -45399050000000000000000, -89100652000000000000000,
  -47715876000000000000000, -87881711000000000000000, -50000000000000000000000, -86602540000000000000000,
  -52249856000000000000000, -85264016000000000000000, -54463904000000000000000, -83867057000000000000000,
  -56640624000000000000000, -82412619000000000000000, -58778525000000000000000, -80901699000000000000000,
  -60876143000000000000000, -79335334000000000000000, -62932039000000000000000, -77714596000000000000000,
  -64944805000000000000000, -76040597000000000000000, -66913061000000000000000, -74314483000000000000000,
  -68835458000000000000000, -72537437000000000000000, -70710678000000000000000, -70710678000000000000000,
  -72537437000000000000000, -68835458000000000000000, -74314483000000000000000, -66913061000000000000000,
  -76040597000000000000000, -64944805000000000000000, -77714596000000000000000, -62932039000000000000000,
  -79335334000000000000000, -60876143000000000000000, -80901699000000000000000, -58778525000000000000000,
  -82412619000000000000000, -56640624000000000000000, -83867057000000000000000, -54463904000000000000000,
  -85264016000000000000000, -52249856000000000000000, -86602540000000000000000, -50000000000000000000000,
  -87881711000000000000000, -47715876000000000000000, -89100652000000000000000, -45399050000000000000000,
  -90258528000000000000000, -43051110000000000000000, -91354546000000000000000, -40673664000000000000000,
  -92387953000000000000000, -38268343000000000000000, -93358043000000000000000, -35836795000000000000000,
  -94264149000000000000000, -33380686000000000000000, -95105652000000000000000, -30901699000000000000000,
  -95881973000000000000000, -28401534000000000000000, -96592583000000000000000, -25881905000000000000000,
  -97236992000000000000000, -23344536000000000000000, -97814760000000000000000, -20791169000000000000000,
  -98325491000000000000000, -18223553000000000000000, -98768834000000000000000, -15643447000000000000000,
  -99144486000000000000000, -13052619000000000000000, -99452190000000000000000, -10452846000000000000000,
  -99691733000000000000000, -7845909600000000000000, -99862953000000000000000, -5233595600000000000000,
  -99965732000000000000000, -2617694800000000000000]

/-- `fft_twiddles_480`, src/tables.c:482-605, divided by `10^23`. -/
def twBf2_480 : List Int := [
  100000000000000000000000, 0, 99991433000000000000000, -1308959600000000000000, 99965732000000000000000,
  -2617694800000000000000, 99922904000000000000000, -3925981600000000000000, 99862953000000000000000,
  -5233595600000000000000, 99785892000000000000000, -6540312900000000000000, 99691733000000000000000,
  -7845909600000000000000, 99580493000000000000000, -9150161900000000000000, 99452190000000000000000,
  -10452846000000000000000, 99306846000000000000000, -11753740000000000000000, 99144486000000000000000,
  -13052619000000000000000, 98965139000000000000000, -14349262000000000000000, 98768834000000000000000,
  -15643447000000000000000, 98555606000000000000000, -16934950000000000000000, 98325491000000000000000,
  -18223553000000000000000, 98078528000000000000000, -19509032000000000000000, 97814760000000000000000,
  -20791169000000000000000, 97534232000000000000000, -22069744000000000000000, 97236992000000000000000,
  -23344536000000000000000, 96923091000000000000000, -24615329000000000000000, 96592583000000000000000,
  -25881905000000000000000, 96245524000000000000000, -27144045000000000000000, 95881973000000000000000,
  -28401534000000000000000, 95501994000000000000000, -29654157000000000000000, 95105652000000000000000,
  -30901699000000000000000, 94693013000000000000000, -32143947000000000000000, 94264149000000000000000,
  -33380686000000000000000, 93819134000000000000000, -34611706000000000000000, 93358043000000000000000,
  -35836795000000000000000, 92880955000000000000000, -37055744000000000000000, 92387953000000000000000,
  -38268343000000000000000, 91879121000000000000000, -39474386000000000000000, 91354546000000000000000,
  -40673664000000000000000, 90814317000000000000000, -41865974000000000000000, 90258528000000000000000,
  -43051110000000000000000, 89687274000000000000000, -44228869000000000000000, 89100652000000000000000,
  -45399050000000000000000, 88498764000000000000000, -46561452000000000000000, 87881711000000000000000,
  -47715876000000000000000, 87249601000000000000000, -48862124000000000000000, 86602540000000000000000,
  -50000000000000000000000, 85940641000000000000000, -51129309000000000000000, 85264016000000000000000,
  -52249856000000000000000, 84572782000000000000000, -53361452000000000000000, 83867057000000000000000,
  -54463904000000000000000, 83146961000000000000000, -55557023000000000000000, 82412619000000000000000,
  -56640624000000000000000, 81664156000000000000000, -57714519000000000000000, 80901699000000000000000,
  -58778525000000000000000, 80125381000000000000000, -59832460000000000000000, 79335334000000000000000,
  -60876143000000000000000, 78531693000000000000000, -61909395000000000000000, 77714596000000000000000,
  -62932039000000000000000, 76884183000000000000000, -63943900000000000000000, 76040597000000000000000,
  -64944805000000000000000, 75183981000000000000000, -65934582000000000000000, 74314483000000000000000,
  -66913061000000000000000, 73432251000000000000000, -67880075000000000000000, 72537437000000000000000,
  -68835458000000000000000, 71630194000000000000000, -69779046000000000000000, 70710678000000000000000,
  -70710678000000000000000, 69779046000000000000000, -71630194000000000000000, 68835458000000000000000,
  -72537437000000000000000, 67880075000000000000000, -73432251000000000000000, 66913061000000000000000,
  -74314483000000000000000, 65934582000000000000000, -75183981000000000000000, 64944805000000000000000,
  -76040597000000000000000, 63943900000000000000000, -76884183000000000000000, 62932039000000000000000,
  -77714596000000000000000, 61909395000000000000000, -78531693000000000000000, 60876143000000000000000,
  -79335334000000000000000, 59832460000000000000000, -80125381000000000000000, 58778525000000000000000,
  -80901699000000000000000, 57714519000000000000000, -81664156000000000000000, 56640624000000000000000,
  -82412619000000000000000, 55557023000000000000000, -83146961000000000000000, 54463904000000000000000,
  -83867057000000000000000, 53361452000000000000000, -84572782000000000000000, 52249856000000000000000,
  -85264016000000000000000, 51129309000000000000000, -85940641000000000000000, 50000000000000000000000,
  -86602540000000000000000, 48862124000000000000000, -87249601000000000000000, 47715876000000000000000,
  -87881711000000000000000, 46561452000000000000000, -88498764000000000000000, 45399050000000000000000,
  -89100652000000000000000, 44228869000000000000000, -89687274000000000000000, 43051110000000000000000,
  -90258528000000000000000, 41865974000000000000000, -90814317000000000000000, 40673664000000000000000,
  -91354546000000000000000, 39474386000000000000000, -91879121000000000000000, 38268343000000000000000,
  -92387953000000000000000, 37055744000000000000000, -92880955000000000000000, 35836795000000000000000,
  -93358043000000000000000, 34611706000000000000000, -93819134000000000000000, 33380686000000000000000,
  -94264149000000000000000, 32143947000000000000000, -94693013000000000000000, 30901699000000000000000,
  -95105652000000000000000, 29654157000000000000000, -95501994000000000000000, 28401534000000000000000,
  -95881973000000000000000, 27144045000000000000000, -96245524000000000000000, 25881905000000000000000,
  -96592583000000000000000, 24615329000000000000000, -96923091000000000000000, 23344536000000000000000,
  -97236992000000000000000, 22069744000000000000000, -97534232000000000000000, 20791169000000000000000,
  -97814760000000000000000, 19509032000000000000000, -98078528000000000000000, 18223553000000000000000,
  -98325491000000000000000, 16934950000000000000000, -98555606000000000000000, 15643447000000000000000,
  -98768834000000000000000, 14349262000000000000000, -98965139000000000000000, 13052619000000000000000,
  -99144486000000000000000, 11753740000000000000000, -99306846000000000000000, 10452846000000000000000,
  -99452190000000000000000, 9150161900000000000000, -99580493000000000000000, 7845909600000000000000,
  -99691733000000000000000, 6540312900000000000000, -99785892000000000000000, 5233595600000000000000,
  -99862953000000000000000, 3925981600000000000000, -99922904000000000000000, 2617694800000000000000,
  -99965732000000000000000, 1308959600000000000000, -99991433000000000000000, 28327694, -100000000000000000000000,
  -1308959600000000000000, -99991433000000000000000, -2617694800000000000000, -99965732000000000000000,
  -3925981600000000000000, -99922904000000000000000, -5233595600000000000000, -99862953000000000000000,
  -6540312900000000000000, -99785892000000000000000, -7845909600000000000000, -99691733000000000000000,
  -9150161900000000000000, -99580493000000000000000, -10452846000000000000000, -99452190000000000000000,
  -11753740000000000000000, -99306846000000000000000, -13052619000000000000000, -99144486000000000000000,
  -14349262000000000000000, -98965139000000000000000, -15643447000000000000000, -98768834000000000000000,
  -16934950000000000000000, -98555606000000000000000, -18223553000000000000000, -98325491000000000000000,
  -19509032000000000000000, -98078528000000000000000, -20791169000000000000000, -97814760000000000000000,
  -22069744000000000000000, -97534232000000000000000, -23344536000000000000000, -97236992000000000000000,
  -24615329000000000000000, -96923091000000000000000, -25881905000000000000000, -96592583000000000000000,
  -27144045000000000000000, -96245524000000000000000, -28401534000000000000000, -95881973000000000000000,
  -29654157000000000000000, -95501994000000000000000, -30901699000000000000000, -95105652000000000000000,
  -32143947000000000000000, -94693013000000000000000, -33380686000000000000000, -94264149000000000000000,
  -34611706000000000000000, -93819134000000000000000, -35836795000000000000000, -93358043000000000000000,
  -37055744000000000000000, -92880955000000000000000, -38268343000000000000000, -92387953000000000000000,
  -39474386000000000000000, -91879121000000000000000, -40673664000000000000000, -91354546000000000000000,
  -41865974000000000000000, -90814317000000000000000, -43051110000000000000000, -90258528000000000000000,
  -44228869000000000000000, -89687274000000000000000, -45399050000000000000000, -89100652000000000000000,
  -46561452000000000000000, -88498764000000000000000, -47715876000000000000000, -87881711000000000000000,
  -48862124000000000000000, -87249601000000000000000, -50000000000000000000000, -86602540000000000000000,
  -51129309000000000000000, -85940641000000000000000, -52249856000000000000000, -85264016000000000000000,
  -53361452000000000000000, -84572782000000000000000, -54463904000000000000000, -83867057000000000000000,
  -55557023000000000000000, -83146961000000000000000, -56640624000000000000000, -82412619000000000000000,
  -57714519000000000000000, -81664156000000000000000, -58778525000000000000000, -80901699000000000000000,
  -59832460000000000000000, -80125381000000000000000, -60876143000000000000000, -79335334000000000000000,
  -61909395000000000000000, -78531693000000000000000, -62932039000000000000000, -77714596000000000000000,
  -63943900000000000000000, -76884183000000000000000, -64944805000000000000000, -76040597000000000000000,
  -65934582000000000000000, -75183981000000000000000, -66913061000000000000000, -74314483000000000000000,
  -67880075000000000000000, -73432251000000000000000, -68835458000000000000000, -72537437000000000000000,
  -69779046000000000000000, -71630194000000000000000, -70710678000000000000000, -70710678000000000000000,
  -71630194000000000000000, -69779046000000000000000, -72537437000000000000000, -68835458000000000000000,
  -73432251000000000000000, -67880075000000000000000, -74314483000000000000000, -66913061000000000000000,
  -75183981000000000000000, -65934582000000000000000, -76040597000000000000000, -64944805000000000000000,
  -76884183000000000000000, -63943900000000000000000, -77714596000000000000000, -62932039000000000000000,
  -78531693000000000000000, -61909395000000000000000, -79335334000000000000000, -60876143000000000000000,
  -80125381000000000000000, -59832460000000000000000, -80901699000000000000000, -58778525000000000000000,
  -81664156000000000000000, -57714519000000000000000, -82412619000000000000000, -56640624000000000000000,
  -83146961000000000000000, -55557023000000000000000, -83867057000000000000000, -54463904000000000000000,
  -84572782000000000000000, -53361452000000000000000, -85264016000000000000000, -52249856000000000000000,
  -85940641000000000000000, -51129309000000000000000, -86602540000000000000000, -50000000000000000000000,
  -87249601000000000000000, -48862124000000000000000, -87881711000000000000000, -47715876000000000000000,
  -88498764000000000000000, -46561452000000000000000, -89100652000000000000000, -45399050000000000000000,
  -89687274000000000000000, -44228869000000000000000, -90258528000000000000000, -43051110000000000000000,
  -90814317000000000000000, -41865974000000000000000, -91354546000000000000000, -40673664000000000000000,
  -91879121000000000000000, -39474386000000000000000, -92387953000000000000000, -38268343000000000000000,
  -92880955000000000000000, -37055744000000000000000, -93358043000000000000000, -35836795000000000000000,
  -93819134000000000000000, -34611706000000000000000, -94264149000000000000000, -33380686000000000000000,
  -94693013000000000000000, -32143947000000000000000, -95105652000000000000000, -30901699000000000000000,
  -95501994000000000000000, -29654157000000000000000, -95881973000000000000000, -28401534000000000000000,
  -96245524000000000000000, -27144045000000000000000, -96592583000000000000000, -25881905000000000000000,
  -96923091000000000000000, -24615329000000000000000, -97236992000000000000000, -23344536000000000000000,
  -97534232000000000000000, -22069744000000000000000, -97814760000000000000000, -20791169000000000000000,
  -98078528000000000000000, -19509032000000000000000, -98325491000000000000000, -18223553000000000000000,
  -98555606000000000000000, -16934950000000000000000, -98768834000000000000000, -15643447000000000000000,
  -98965139000000000000000, -14349262000000000000000, -99144486000000000000000, -13052619000000000000000,
  -99306846000000000000000, -11753740000000000000000, -99452190000000000000000, -10452846000000000000000,
  -99580493000000000000000, -9150161900000000000000, -99691733000000000000000, -7845909600000000000000,
  -99785892000000000000000, -6540312900000000000000, -99862953000000000000000, -5233595600000000000000,
  -99922904000000000000000, -3925981600000000000000, -99965732000000000000000, -2617694800000000000000,
  -99991433000000000000000, -1308959600000000000000]

/-- `mdct_rot_40`, src/tables.c:627-635, divided by `10^9`. -/
def twRot_40 : List Int := [
  562232930, 11040837, 553583740, 98857513, 531303480, 184239990, 495940770, 265085870, 448366350, 339404450,
  389751670, 405365770, 321540000, 461345630, 245410950, 505965640, 163239070, 538127100, 77047702, 557038080]

/-- `mdct_rot_80`, src/tables.c:637-650, divided by `10^10`. -/
def twRot_80 : List Int := [
  4728480200, 46423237, 4710261500, 417272410, 4663002500, 785548950, 4586994600, 1148982300, 4482706300, 1505331900,
  4350780600, 1852400500, 4192031000, 2188048500, 4007436000, 2510206400, 3798133900, 2816888100, 3565415000,
  3106202700, 3310714200, 3376366600, 3035601700, 3625714000, 2741773700, 3852707700, 2431041800, 4055948200,
  2105321700, 4234182400, 1766621500, 4386311400, 1417029600, 4511397400, 1058701200, 4608669200, 693845580,
  4677526900, 324712150, 4717546200]

/-- `mdct_rot_120`, src/tables.c:654-672, divided by `10^9`. -/
def twRot_120 : List Int := [
  427277850, 2796567, 426545920, 25154729, 424644860, 47443945, 421579880, 69603119, 417359370, 91571516, 411994910,
  113288920, 405501200, 134695810, 397896040, 155733510, 389200280, 176344350, 379437740, 196471850, 368635190,
  216060830, 356822240, 235057600, 344031260, 253410090, 330297320, 271068010, 315658060, 287982940, 300153600,
  304108540, 283826440, 319400600, 266721330, 333817200, 248885150, 347318830, 230366800, 359868480, 211217030,
  371431760, 191488330, 381976970, 171234770, 391475210, 150511870, 399900440, 129376430, 407229570, 107886370,
  413442520, 86100606, 418522250, 64078846, 422454830, 41881450, 425229500, 19569261, 426838650]

/-- `mdct_rot_160`, src/tables.c:674-697, divided by `10^10`. -/
def twRot_160 : List Int := [
  3976305700, 19518802, 3972473800, 175612780, 3962516700, 331435980, 3946449600, 486748130, 3924297400, 641309750,
  3896094200, 794882520, 3861883500, 947229640, 3821718100, 1098116200, 3775659800, 1247309500, 3723779800,
  1394579600, 3666158000, 1539699300, 3602883200, 1682445000, 3534053000, 1822596400, 3459773600, 1959937500,
  3380159400, 2094256600, 3295333300, 2225346400, 3205426100, 2353004900, 3110576200, 2477035300, 3010930200,
  2597246200, 2906641400, 2713452400, 2797870900, 2825474600, 2684786200, 2933140200, 2567561800, 3036283100,
  2446378400, 3134744200, 2321422800, 3228371800, 2192887800, 3317021500, 2060971500, 3400556500, 1925877400,
  3478848200, 1787813600, 3551775700, 1646993200, 3619226600, 1503633300, 3681097000, 1357954900, 3737291400,
  1210182600, 3787723100, 1060544200, 3832314500, 909270640, 3870996700, 756595010, 3903710100, 602752770, 3930404200,
  447981120, 3951038000, 292518720, 3965579500, 136605280, 3974006500]

/-- `mdct_rot_240`, src/tables.c:699-732, divided by `10^10`. -/
def twRot_240 : List Int := [
  3593021900, 11758179, 3591482800, 105808500, 3587482400, 199786300, 3581023300, 293627180, 3572109900, 387266820,
  3560748300, 480641050, 3546946400, 573685870, 3530713600, 666337520, 3512061100, 758532490, 3491001500, 850207600,
  3467549400, 941300020, 3441720800, 1031747300, 3413533400, 1121487500, 3383006500, 1210459100, 3350161100,
  1298601100, 3315019700, 1385853100, 3277606300, 1472155300, 3237946600, 1557448500, 3196067800, 1641674400,
  3151998600, 1724775200, 3105769100, 1806693800, 3057411100, 1887374300, 3006957700, 1966761200, 2954443500,
  2044800200, 2899904500, 2121437800, 2843378000, 2196621500, 2784902800, 2270299800, 2724518900, 2342422000,
  2662267900, 2412938900, 2598192200, 2481802100, 2532335800, 2548964400, 2464744000, 2614379800, 2395462900,
  2678003400, 2324540100, 2739791600, 2252024100, 2799702100, 2177964700, 2857693800, 2102412700, 2913727000,
  2025419800, 2967763300, 1947038700, 3019765700, 1867323300, 3069698400, 1786328100, 3117527300, 1704108600,
  3163219600, 1620721200, 3206744000, 1536223000, 3248070700, 1450672000, 3287171300, 1364126800, 3324019000,
  1276646700, 3358588700, 1188291600, 3390856500, 1099122100, 3420800300, 1009199400, 3448399800, 918584960,
  3473635900, 827341000, 3496491300, 735530020, 3516950400, 643214940, 3534999200, 550459040, 3550625200, 457325880,
  3563817800, 363879290, 3574568000, 270183320, 3582868300, 176302170, 3588713100, 82300199, 3592098400]

/-- `mdct_rot_320`, src/tables.c:734-777, divided by `10^10`. -/
def twRot_320 : List Int := [
  3343691500, 8206670, 3342885800, 73854098, 3340791400, 139473050, 3337409100, 205038240, 3332740100, 270524380,
  3326786300, 335906230, 3319549900, 401158580, 3311033800, 466256270, 3301241300, 531174220, 3290176000, 595887380,
  3277842300, 660370820, 3264245000, 724599680, 3249389200, 788549190, 3233280700, 852194690, 3215925700, 915511660,
  3197331000, 978475690, 3177503500, 1041062500, 3156451200, 1103247900, 3134181900, 1165008100, 3110704300,
  1226319100, 3086027500, 1287157300, 3060161000, 1347499300, 3033114800, 1407321800, 3004899200, 1466601800,
  2975525100, 1525316400, 2945004000, 1583442900, 2913347500, 1640959000, 2880567800, 1697842400, 2846677700,
  1754071300, 2811690000, 1809624000, 2775618500, 1864479000, 2738476800, 1918615300, 2700279500, 1972011900,
  2661041100, 2024648200, 2620776800, 2076504000, 2579502200, 2127559200, 2537233100, 2177794300, 2493985900,
  2227189800, 2449777200, 2275726600, 2404624100, 2323386100, 2358543900, 2370149900, 2311554500, 2415999900,
  2263673900, 2460918600, 2214920600, 2504888500, 2165313500, 2547892700, 2114871600, 2589914700, 2063614300,
  2630938200, 2011561500, 2670947400, 1958733200, 2709927000, 1905149800, 2747861800, 1850831800, 2784737200,
  1795800400, 2820539100, 1740076600, 2855253600, 1683682100, 2888867400, 1626638400, 2921367400, 1568967600,
  2952741200, 1510692000, 2982976700, 1451833900, 3012062100, 1392416200, 3039986400, 1332461600, 3066738700,
  1271993300, 3092308700, 1211034700, 3116686500, 1149609200, 3139862800, 1087740500, 3161828700, 1025452500,
  3182575500, 962769100, 3202095500, 899714560, 3220381000, 836313160, 3237424900, 772589350, 3253220800, 708567690,
  3267762500, 644272860, 3281044400, 579729650, 3293061400, 514962950, 3303808900, 449997720, 3313282700, 384859010,
  3321479100, 319571920, 3328395100, 254161640, 3334027900, 188653370, 3338375300, 123072370, 3341435800, 57443922,
  3343208100]

/-- `mdct_rot_360`, src/tables.c:779-827, divided by `10^11`. -/
def twRot_360 : List Int := [
  32466714000, 70831495, 32460533000, 637443000, 32444464000, 1203860300, 32418513000, 1769911000, 32382686000,
  2335422500, 32336995000, 2900222600, 32281454000, 3464139200, 32216080000, 4027000700, 32140893000, 4588635500,
  32055915000, 5148872500, 31961172000, 5707541200, 31856694000, 6264471300, 31742512000, 6819493100, 31618661000,
  7372437700, 31485178000, 7923136600, 31342105000, 8471422000, 31189485000, 9017126900, 31027364000, 9560085100,
  30855792000, 10100131000, 30674821000, 10637101000, 30484506000, 11170830000, 30284905000, 11701157000, 30076079000,
  12227919000, 29858092000, 12750957000, 29631010000, 13270110000, 29394901000, 13785221000, 29149839000, 14296134000,
  28895897000, 14802691000, 28633154000, 15304740000, 28361688000, 15802126000, 28081584000, 16294699000, 27792925000,
  16782308000, 27495800000, 17264806000, 27190300000, 17742044000, 26876518000, 18213878000, 26554548000, 18680164000,
  26224490000, 19140760000, 25886443000, 19595525000, 25540512000, 20044321000, 25186800000, 20487012000, 24825416000,
  20923462000, 24456471000, 21353538000, 24080075000, 21777110000, 23696345000, 22194049000, 23305396000, 22604227000,
  22907348000, 23007519000, 22502323000, 23403803000, 22090443000, 23792959000, 21671834000, 24174866000, 21246624000,
  24549410000, 20814942000, 24916476000, 20376919000, 25275952000, 19932689000, 25627728000, 19482388000, 25971698000,
  19026152000, 26307757000, 18564121000, 26635803000, 18096434000, 26955734000, 17623236000, 27267455000, 17144669000,
  27570870000, 16660880000, 27865887000, 16172015000, 28152415000, 15678225000, 28430368000, 15179659000, 28699661000,
  14676469000, 28960211000, 14168808000, 29211940000, 13656831000, 29454771000, 13140695000, 29688629000, 12620555000,
  29913444000, 12096571000, 30129147000, 11568903000, 30335673000, 11037710000, 30532958000, 10503156000, 30720942000,
  9965401700, 30899568000, 9424612100, 31068782000, 8880951700, 31228533000, 8334586000, 31378770000, 7785681600,
  31519450000, 7234405500, 31650528000, 6680925800, 31771965000, 6125411000, 31883725000, 5568030400, 31985772000,
  5008953600, 32078076000, 4448351100, 32160608000, 3886393600, 32233345000, 3323252300, 32296262000, 2759098600,
  32349342000, 2194104500, 32392568000, 1628442100, 32425927000, 1062283600, 32449408000, 495801590, 32463006000]

/-- `mdct_rot_480`, src/tables.c:829-892, divided by `10^11`. -/
def twRot_480 : List Int := [
  30213714000, 49437117, 30210478000, 444918170, 30202066000, 840322990, 30188479000, 1235583800, 30169719000,
  1630633000, 30145790000, 2025402700, 30116696000, 2419825400, 30082441000, 2813833400, 30043032000, 3207359300,
  29998475000, 3600335700, 29948778000, 3992695200, 29893950000, 4384370500, 29833999000, 4775294600, 29768936000,
  5165400400, 29698773000, 5554621300, 29623521000, 5942890300, 29543193000, 6330141100, 29457803000, 6716307200,
  29367365000, 7101322500, 29271896000, 7485121100, 29171411000, 7867637100, 29065928000, 8248805000, 28955464000,
  8628559500, 28840039000, 9006835600, 28719672000, 9383568400, 28594385000, 9758693400, 28464198000, 10132146000,
  28329133000, 10503863000, 28189215000, 10873780000, 28044466000, 11241834000, 27894913000, 11607962000, 27740579000,
  11972100000, 27581493000, 12334187000, 27417680000, 12694161000, 27249170000, 13051960000, 27075991000, 13407523000,
  26898172000, 13760788000, 26715744000, 14111695000, 26528739000, 14460184000, 26337188000, 14806196000, 26141125000,
  15149671000, 25940582000, 15490549000, 25735595000, 15828774000, 25526198000, 16164286000, 25312427000, 16497029000,
  25094319000, 16826945000, 24871911000, 17153978000, 24645242000, 17478072000, 24414349000, 17799171000, 24179274000,
  18117220000, 23940055000, 18432165000, 23696735000, 18743951000, 23449354000, 19052526000, 23197955000, 19357836000,
  22942581000, 19659830000, 22683276000, 19958454000, 22420085000, 20253659000, 22153052000, 20545394000, 21882223000,
  20833608000, 21607645000, 21118253000, 21329364000, 21399279000, 21047429000, 21676638000, 20761888000, 21950284000,
  20472788000, 22220168000, 20180182000, 22486245000, 19884117000, 22748469000, 19584645000, 23006795000, 19281818000,
  23261179000, 18975686000, 23511577000, 18666303000, 23757947000, 18353722000, 24000246000, 18037996000, 24238433000,
  17719180000, 24472466000, 17397327000, 24702306000, 17072493000, 24927914000, 16744734000, 25149250000, 16414106000,
  25366278000, 16080666000, 25578958000, 15744470000, 25787256000, 15405576000, 25991136000, 15064043000, 26190562000,
  14719929000, 26385500000, 14373292000, 26575918000, 14024192000, 26761782000, 13672690000, 26943060000, 13318845000,
  27119722000, 12962718000, 27291736000, 12604369000, 27459075000, 12243861000, 27621709000, 11881255000, 27779609000,
  11516614000, 27932750000, 11149999000, 28081105000, 10781473000, 28224648000, 10411100000, 28363355000, 10038943000,
  28497202000, 9665066400, 28626167000, 9289533500, 28750226000, 8912408800, 28869359000, 8533757000, 28983546000,
  8153643000, 29092766000, 7772131900, 29197001000, 7389289100, 29296234000, 7005180200, 29390447000, 6619871000,
  29479624000, 6233427500, 29563750000, 5845915900, 29642810000, 5457402700, 29716791000, 5067954300, 29785681000,
  4677637600, 29849466000, 4286519500, 29908137000, 3894666800, 29961684000, 3502146800, 30010097000, 3109026700,
  30053367000, 2715374000, 30091488000, 2321255900, 30124454000, 1926740100, 30152257000, 1531894200, 30174894000,
  1136785800, 30192361000, 741482640, 30204654000, 346052410, 30211772000]

/-- `mdct_rot_640`, src/tables.c:894-977, divided by `10^11`. -/
def twRot_640 : List Int := [
  28117045000, 34504823, 28115351000, 310537170, 28110948000, 586539590, 28103835000, 862485470, 28094013000,
  1138348200, 28081484000, 1414101300, 28066248000, 1689718000, 28048307000, 1965171900, 28027662000, 2240436400,
  28004317000, 2515484900, 27978272000, 2790291000, 27949530000, 3064828200, 27918095000, 3339070000, 27883969000,
  3612989900, 27847155000, 3886561600, 27807658000, 4159758700, 27765480000, 4432554900, 27720626000, 4704923900,
  27673100000, 4976839400, 27622908000, 5248275200, 27570052000, 5519205200, 27514540000, 5789603200, 27456376000,
  6059443300, 27395565000, 6328699200, 27332114000, 6597345300, 27266028000, 6865355400, 27197315000, 7132703900,
  27125980000, 7399364900, 27052031000, 7665312700, 26975475000, 7930521700, 26896318000, 8194966400, 26814570000,
  8458621200, 26730236000, 8721460800, 26643327000, 8983459800, 26553849000, 9244592900, 26461813000, 9504835000,
  26367225000, 9764161000, 26270097000, 10022546000, 26170436000, 10279965000, 26068253000, 10536393000, 25963558000,
  10791806000, 25856360000, 11046178000, 25746670000, 11299486000, 25634499000, 11551705000, 25519857000, 11802810000,
  25402755000, 12052778000, 25283205000, 12301584000, 25161218000, 12549204000, 25036806000, 12795615000, 24909981000,
  13040793000, 24780754000, 13284714000, 24649140000, 13527354000, 24515150000, 13768691000, 24378797000, 14008700000,
  24240094000, 14247360000, 24099055000, 14484646000, 23955693000, 14720536000, 23810023000, 14955007000, 23662057000,
  15188037000, 23511811000, 15419603000, 23359299000, 15649683000, 23204535000, 15878255000, 23047535000, 16105296000,
  22888313000, 16330785000, 22726886000, 16554699000, 22563268000, 16777019000, 22397475000, 16997721000, 22229524000,
  17216785000, 22059430000, 17434190000, 21887210000, 17649914000, 21712880000, 17863937000, 21536458000, 18076239000,
  21357960000, 18286798000, 21177403000, 18495594000, 20994805000, 18702608000, 20810184000, 18907820000, 20623557000,
  19111209000, 20434942000, 19312756000, 20244358000, 19512442000, 20051823000, 19710247000, 19857355000, 19906152000,
  19660973000, 20100139000, 19462696000, 20292188000, 19262543000, 20482282000, 19060533000, 20670401000, 18856687000,
  20856528000, 18651023000, 21040645000, 18443562000, 21222734000, 18234322000, 21402778000, 18023326000, 21580759000,
  17810592000, 21756659000, 17596142000, 21930463000, 17379995000, 22102153000, 17162174000, 22271713000, 16942698000,
  22439126000, 16721590000, 22604377000, 16498869000, 22767449000, 16274559000, 22928326000, 16048680000, 23086994000,
  15821254000, 23243436000, 15592304000, 23397638000, 15361850000, 23549585000, 15129916000, 23699263000, 14896524000,
  23846656000, 14661696000, 23991751000, 14425454000, 24134533000, 14187823000, 24274989000, 13948824000, 24413106000,
  13708480000, 24548869000, 13466815000, 24682267000, 13223853000, 24813285000, 12979616000, 24941912000, 12734127000,
  25068135000, 12487412000, 25191942000, 12239493000, 25313321000, 11990394000, 25432260000, 11740139000, 25548748000,
  11488753000, 25662774000, 11236260000, 25774326000, 10982684000, 25883394000, 10728049000, 25989967000, 10472380000,
  26094035000, 10215702000, 26195588000, 9958039300, 26294617000, 9699416800, 26391111000, 9439859400, 26485061000,
  9179392200, 26576459000, 8918040200, 26665295000, 8655828700, 26751562000, 8392783000, 26835249000, 8128928300,
  26916351000, 7864290100, 26994858000, 7598894000, 27070763000, 7332765500, 27144059000, 7065930200, 27214739000,
  6798413900, 27282796000, 6530242400, 27348224000, 6261441400, 27411015000, 5992037000, 27471165000, 5722055000,
  27528667000, 5451521600, 27583516000, 5180462700, 27635706000, 4908904500, 27685232000, 4636873100, 27732090000,
  4364394900, 27776275000, 4091496000, 27817783000, 3818202800, 27856610000, 3544541500, 27892752000, 3270538700,
  27926206000, 2996220600, 27956968000, 2721613700, 27985036000, 2446744500, 28010406000, 2171639500, 28033077000,
  1896325200, 28053046000, 1620828100, 28070310000, 1345174800, 28084870000, 1069391800, 28096723000, 793505760,
  28105867000, 517543240, 28112303000, 241530850, 28116029000]

/-- `mdct_rot_720`, src/tables.c:979-1072, divided by `10^11`. -/
def twRot_720 : List Int := [
  27301192000, 29780993, 27299893000, 268024680, 27296515000, 506247960, 27291057000, 744432690, 27283522000,
  982560720, 27273909000, 1220613900, 27262218000, 1458574200, 27248452000, 1696423400, 27232611000, 1934143400,
  27214695000, 2171716100, 27194708000, 2409123400, 27172649000, 2646347200, 27148521000, 2883369500, 27122325000,
  3120172300, 27094064000, 3356737400, 27063740000, 3593046900, 27031354000, 3829082800, 26996910000, 4064827000,
  26960411000, 4300261800, 26921858000, 4535369000, 26881255000, 4770130900, 26838604000, 5004529400, 26793910000,
  5238546900, 26747176000, 5472165500, 26698404000, 5705367300, 26647599000, 5938134600, 26594765000, 6170449700,
  26539906000, 6402294900, 26483026000, 6633652600, 26424128000, 6864505100, 26363219000, 7094834800, 26300302000,
  7324624200, 26235382000, 7553855800, 26168464000, 7782512200, 26099553000, 8010575900, 26028655000, 8238029500,
  25955774000, 8464855800, 25880917000, 8691037500, 25804089000, 8916557300, 25725296000, 9141398100, 25644543000,
  9365542700, 25561838000, 9588974100, 25477186000, 9811675300, 25390594000, 10033629000, 25302069000, 10254819000,
  25211616000, 10475228000, 25119244000, 10694839000, 25024958000, 10913636000, 24928767000, 11131602000, 24830678000,
  11348720000, 24730697000, 11564973000, 24628833000, 11780346000, 24525094000, 11994822000, 24419487000, 12208384000,
  24312020000, 12421017000, 24202702000, 12632704000, 24091541000, 12843429000, 23978545000, 13053175000, 23863723000,
  13261928000, 23747083000, 13469670000, 23628636000, 13676387000, 23508388000, 13882063000, 23386351000, 14086681000,
  23262533000, 14290226000, 23136943000, 14492683000, 23009591000, 14694037000, 22880487000, 14894272000, 22749640000,
  15093372000, 22617061000, 15291323000, 22482759000, 15488109000, 22346746000, 15683716000, 22209030000, 15878128000,
  22069624000, 16071332000, 21928536000, 16263311000, 21785779000, 16454052000, 21641363000, 16643540000, 21495298000,
  16831760000, 21347597000, 17018699000, 21198270000, 17204341000, 21047328000, 17388674000, 20894784000, 17571682000,
  20740648000, 17753352000, 20584933000, 17933670000, 20427651000, 18112622000, 20268812000, 18290195000, 20108431000,
  18466375000, 19946518000, 18641149000, 19783085000, 18814503000, 19618147000, 18986424000, 19451714000, 19156900000,
  19283800000, 19325917000, 19114417000, 19493462000, 18943579000, 19659522000, 18771298000, 19824085000, 18597588000,
  19987139000, 18422461000, 20148670000, 18245932000, 20308667000, 18068013000, 20467118000, 17888718000, 20624010000,
  17708060000, 20779331000, 17526055000, 20933070000, 17342714000, 21085214000, 17158053000, 21235753000, 16972085000,
  21384675000, 16784825000, 21531968000, 16596286000, 21677622000, 16406484000, 21821624000, 16215432000, 21963965000,
  16023145000, 22104633000, 15829638000, 22243618000, 15634925000, 22380909000, 15439022000, 22516496000, 15241943000,
  22650368000, 15043704000, 22782514000, 14844319000, 22912926000, 14643803000, 23041593000, 14442172000, 23168506000,
  14239441000, 23293654000, 14035626000, 23417028000, 13830742000, 23538618000, 13624805000, 23658417000, 13417830000,
  23776413000, 13209834000, 23892599000, 13000831000, 24006965000, 12790838000, 24119503000, 12579872000, 24230205000,
  12367947000, 24339061000, 12155080000, 24446063000, 11941288000, 24551204000, 11726586000, 24654476000, 11510992000,
  24755869000, 11294520000, 24855378000, 11077189000, 24952993000, 10859014000, 25048709000, 10640012000, 25142516000,
  10420200000, 25234410000, 10199594000, 25324381000, 9978211700, 25412424000, 9756069400, 25498531000, 9533184100,
  25582697000, 9309572800, 25664915000, 9085252500, 25745178000, 8860240300, 25823480000, 8634553400, 25899816000,
  8408209000, 25974180000, 8181224200, 26046565000, 7953616500, 26116967000, 7725403000, 26185380000, 7496601200,
  26251799000, 7267228400, 26316219000, 7037302300, 26378635000, 6806840300, 26439042000, 6575859800, 26497435000,
  6344378600, 26553810000, 6112414300, 26608164000, 5879984500, 26660491000, 5647106900, 26710788000, 5413799200,
  26759050000, 5180079300, 26805275000, 4945964800, 26849459000, 4711473800, 26891597000, 4476623900, 26931688000,
  4241433100, 26969728000, 4005919300, 27005714000, 3770100400, 27039644000, 3533994500, 27071514000, 3297619400,
  27101323000, 3060993200, 27129068000, 2824133800, 27154747000, 2587059400, 27178357000, 2349788000, 27199899000,
  2112337700, 27219369000, 1874726500, 27236765000, 1636972500, 27252088000, 1399093800, 27265336000, 1161108600,
  27276507000, 923035020, 27285601000, 684891110, 27292617000, 446695050, 27297554000, 208464970, 27300413000]

/-- `mdct_rot_960`, src/tables.c:1074-1197, divided by `10^11`. -/
def twRot_960 : List Int := [
  25406629000, 20785754, 25405949000, 187070120, 25404180000, 353346470, 25401323000, 519607690, 25397379000,
  685846640, 25392346000, 852056220, 25386225000, 1018229300, 25379017000, 1184358800, 25370722000, 1350437500,
  25361340000, 1516458400, 25350872000, 1682414300, 25339318000, 1848298100, 25326678000, 2014102800, 25312953000,
  2179821200, 25298144000, 2345446200, 25282252000, 2510970800, 25265276000, 2676387800, 25247218000, 2841690100,
  25228079000, 3006870700, 25207859000, 3171922500, 25186559000, 3336838500, 25164180000, 3501611500, 25140723000,
  3666234400, 25116189000, 3830700400, 25090580000, 3995002200, 25063895000, 4159133000, 25036137000, 4323085500,
  25007306000, 4486852900, 24977405000, 4650428100, 24946433000, 4813804000, 24914393000, 4976973800, 24881285000,
  5139930300, 24847112000, 5302666700, 24811874000, 5465175900, 24775573000, 5627451100, 24738211000, 5789485100,
  24699789000, 5951271200, 24660310000, 6112802300, 24619774000, 6274071600, 24578183000, 6435072100, 24535539000,
  6595796900, 24491845000, 6756239200, 24447101000, 6916392100, 24401310000, 7076248800, 24354474000, 7235802300,
  24306594000, 7395045800, 24257673000, 7553972600, 24207714000, 7712575700, 24156717000, 7870848500, 24104685000,
  8028784200, 24051621000, 8186375900, 23997527000, 8343616900, 23942404000, 8500500500, 23886256000, 8657020000,
  23829085000, 8813168600, 23770893000, 8968939800, 23711683000, 9124326700, 23651456000, 9279322700, 23590217000,
  9433921300, 23527968000, 9588115800, 23464710000, 9741899500, 23400447000, 9895265900, 23335182000, 10048208000,
  23268918000, 10200721000, 23201656000, 10352796000, 23133401000, 10504427000, 23064154000, 10655609000, 22993920000,
  10806334000, 22922701000, 10956597000, 22850500000, 11106390000, 22777320000, 11255707000, 22703164000, 11404542000,
  22628036000, 11552888000, 22551938000, 11700740000, 22474874000, 11848090000, 22396848000, 11994933000, 22317862000,
  12141262000, 22237920000, 12287071000, 22157026000, 12432354000, 22075182000, 12577104000, 21992393000, 12721315000,
  21908662000, 12864982000, 21823992000, 13008097000, 21738388000, 13150655000, 21651852000, 13292650000, 21564388000,
  13434075000, 21476001000, 13574925000, 21386694000, 13715193000, 21296471000, 13854874000, 21205336000, 13993962000,
  21113292000, 14132449000, 21020344000, 14270332000, 20926495000, 14407603000, 20831750000, 14544257000, 20736113000,
  14680288000, 20639587000, 14815690000, 20542177000, 14950458000, 20443887000, 15084585000, 20344722000, 15218066000,
  20244685000, 15350895000, 20143780000, 15483066000, 20042013000, 15614574000, 19939388000, 15745414000, 19835908000,
  15875578000, 19731578000, 16005063000, 19626403000, 16133862000, 19520388000, 16261970000, 19413536000, 16389382000,
  19305853000, 16516091000, 19197343000, 16642093000, 19088010000, 16767382000, 18977860000, 16891953000, 18866896000,
  17015800000, 18755125000, 17138918000, 18642550000, 17261302000, 18529177000, 17382947000, 18415009000, 17503847000,
  18300053000, 17623997000, 18184314000, 17743392000, 18067795000, 17862027000, 17950502000, 17979897000, 17832440000,
  18096997000, 17713614000, 18213322000, 17594030000, 18328866000, 17473692000, 18443625000, 17352605000, 18557595000,
  17230775000, 18670769000, 17108207000, 18783143000, 16984906000, 18894713000, 16860878000, 19005474000, 16736127000,
  19115420000, 16610659000, 19224547000, 16484480000, 19332851000, 16357595000, 19440327000, 16230008000, 19546970000,
  16101727000, 19652776000, 15972756000, 19757740000, 15843101000, 19861857000, 15712767000, 19965124000, 15581760000,
  20067536000, 15450085000, 20169087000, 15317749000, 20269775000, 15184756000, 20369595000, 15051113000, 20468542000,
  14916826000, 20566612000, 14781899000, 20663801000, 14646339000, 20760105000, 14510152000, 20855520000, 14373343000,
  20950041000, 14235918000, 21043665000, 14097884000, 21136388000, 13959246000, 21228205000, 13820009000, 21319113000,
  13680181000, 21409107000, 13539767000, 21498185000, 13398773000, 21586341000, 13257204000, 21673573000, 13115068000,
  21759876000, 12972370000, 21845247000, 12829117000, 21929683000, 12685313000, 22013179000, 12540967000, 22095732000,
  12396083000, 22177339000, 12250668000, 22257995000, 12104729000, 22337698000, 11958271000, 22416445000, 11811300000,
  22494231000, 11663824000, 22571053000, 11515848000, 22646909000, 11367379000, 22721794000, 11218422000, 22795706000,
  11068986000, 22868642000, 10919075000, 22940598000, 10768696000, 23011571000, 10617856000, 23081559000, 10466561000,
  23150558000, 10314818000, 23218565000, 10162633000, 23285577000, 10010013000, 23351592000, 9856963800, 23416607000,
  9703492400, 23480619000, 9549605400, 23543625000, 9395309300, 23605622000, 9240610700, 23666608000, 9085516300,
  23726580000, 8930032700, 23785536000, 8774166600, 23843473000, 8617924600, 23900389000, 8461313500, 23956281000,
  8304339900, 24011147000, 8147010600, 24064984000, 7989332200, 24117790000, 7831311700, 24169563000, 7672955600,
  24220301000, 7514270900, 24270001000, 7355264300, 24318662000, 7195942700, 24366281000, 7036312800, 24412856000,
  6876381400, 24458385000, 6716155500, 24502867000, 6555641900, 24546299000, 6394847500, 24588679000, 6233779200,
  24630007000, 6072443800, 24670279000, 5910848300, 24709494000, 5748999600, 24747651000, 5586904600, 24784748000,
  5424570300, 24820783000, 5262003600, 24855755000, 5099211600, 24889662000, 4936201100, 24922503000, 4772979100,
  24954276000, 4609552700, 24984980000, 4445928800, 25014615000, 4282114500, 25043177000, 4118116700, 25070667000,
  3953942600, 25097083000, 3789599000, 25122424000, 3625093100, 25146688000, 3460432000, 25169876000, 3295622600,
  25191985000, 3130672000, 25213015000, 2965587400, 25232965000, 2800375700, 25251834000, 2635044000, 25269621000,
  2469599400, 25286326000, 2304049100, 25301948000, 2138400100, 25316486000, 1972659500, 25329940000, 1806834300,
  25342308000, 1640931800, 25353591000, 1474959000, 25363788000, 1308923000, 25372898000, 1142830900, 25380921000,
  976689840, 25387857000, 810506970, 25393706000, 644289380, 25398467000, 478044190, 25402140000, 311778520,
  25404724000, 145499500, 25406221000]

/-- `mdct_rot_1920`, src/tables.c:1201-1444, divided by `10^12`. -/
def twRot_1920 : List Int := [
  213643490000, 87393339, 213642060000, 786538290, 213638340000, 1485674800, 213632330000, 2184795400, 213624040000,
  2883892700, 213613460000, 3582959000, 213600590000, 4281987000, 213585430000, 4980969100, 213567990000, 5679897900,
  213548260000, 6378765800, 213526240000, 7077565400, 213501930000, 7776289300, 213475340000, 8474929800,
  213446470000, 9173479600, 213415300000, 9871931200, 213381850000, 10570277000, 213346120000, 11268510000,
  213308100000, 11966622000, 213267800000, 12664605000, 213225210000, 13362454000, 213180340000, 14060159000,
  213133190000, 14757713000, 213083750000, 15455110000, 213032040000, 16152341000, 212978040000, 16849399000,
  212921760000, 17546276000, 212863200000, 18242966000, 212802360000, 18939460000, 212739240000, 19635751000,
  212673840000, 20331833000, 212606170000, 21027696000, 212536220000, 21723334000, 212463990000, 22418740000,
  212389490000, 23113905000, 212312710000, 23808823000, 212233660000, 24503486000, 212152330000, 25197887000,
  212068740000, 25892018000, 211982870000, 26585871000, 211894730000, 27279440000, 211804330000, 27972716000,
  211711650000, 28665693000, 211616710000, 29358363000, 211519500000, 30050719000, 211420030000, 30742753000,
  211318290000, 31434457000, 211214290000, 32125825000, 211108030000, 32816849000, 210999510000, 33507522000,
  210888730000, 34197835000, 210775680000, 34887783000, 210660390000, 35577357000, 210542830000, 36266549000,
  210423020000, 36955354000, 210300960000, 37643762000, 210176640000, 38331768000, 210050080000, 39019363000,
  209921260000, 39706540000, 209790200000, 40393292000, 209656890000, 41079611000, 209521340000, 41765490000,
  209383540000, 42450923000, 209243500000, 43135900000, 209101210000, 43820416000, 208956690000, 44504462000,
  208809930000, 45188032000, 208660940000, 45871117000, 208509710000, 46553712000, 208356250000, 47235808000,
  208200550000, 47917398000, 208042630000, 48598475000, 207882480000, 49279031000, 207720100000, 49959060000,
  207555490000, 50638554000, 207388670000, 51317505000, 207219620000, 51995907000, 207048360000, 52673752000,
  206874870000, 53351033000, 206699180000, 54027742000, 206521260000, 54703873000, 206341140000, 55379418000,
  206158810000, 56054370000, 205974270000, 56728722000, 205787520000, 57402466000, 205598570000, 58075596000,
  205407420000, 58748104000, 205214060000, 59419982000, 205018510000, 60091224000, 204820770000, 60761823000,
  204620830000, 61431770000, 204418700000, 62101060000, 204214380000, 62769685000, 204007870000, 63437638000,
  203799180000, 64104911000, 203588310000, 64771498000, 203375250000, 65437391000, 203160020000, 66102584000,
  202942620000, 66767068000, 202723030000, 67430838000, 202501280000, 68093885000, 202277360000, 68756203000,
  202051270000, 69417785000, 201823020000, 70078623000, 201592610000, 70738711000, 201360040000, 71398041000,
  201125310000, 72056607000, 200888430000, 72714401000, 200649400000, 73371416000, 200408220000, 74027646000,
  200164890000, 74683083000, 199919420000, 75337720000, 199671810000, 75991550000, 199422060000, 76644566000,
  199170170000, 77296762000, 198916150000, 77948130000, 198660000000, 78598663000, 198401730000, 79248354000,
  198141320000, 79897197000, 197878800000, 80545184000, 197614160000, 81192308000, 197347400000, 81838563000,
  197078530000, 82483942000, 196807540000, 83128437000, 196534450000, 83772042000, 196259260000, 84414750000,
  195981960000, 85056553000, 195702570000, 85697446000, 195421070000, 86337421000, 195137490000, 86976472000,
  194851820000, 87614591000, 194564050000, 88251772000, 194274210000, 88888007000, 193982280000, 89523291000,
  193688280000, 90157616000, 193392210000, 90790976000, 193094060000, 91423363000, 192793840000, 92054771000,
  192491560000, 92685193000, 192187220000, 93314623000, 191880820000, 93943054000, 191572370000, 94570478000,
  191261860000, 95196890000, 190949300000, 95822282000, 190634700000, 96446648000, 190318060000, 97069981000,
  189999380000, 97692274000, 189678670000, 98313522000, 189355920000, 98933716000, 189031150000, 99552851000,
  188704350000, 100170920000, 188375540000, 100787920000, 188044700000, 101403830000, 187711850000, 102018660000,
  187376990000, 102632400000, 187040120000, 103245040000, 186701250000, 103856570000, 186360390000, 104467000000,
  186017520000, 105076300000, 185672660000, 105684480000, 185325820000, 106291520000, 184976990000, 106897430000,
  184626180000, 107502190000, 184273390000, 108105800000, 183918630000, 108708250000, 183561900000, 109309540000,
  183203200000, 109909660000, 182842540000, 110508600000, 182479920000, 111106360000, 182115350000, 111702930000,
  181748830000, 112298300000, 181380360000, 112892470000, 181009950000, 113485430000, 180637610000, 114077180000,
  180263320000, 114667700000, 179887110000, 115256990000, 179508970000, 115845060000, 179128910000, 116431880000,
  178746920000, 117017450000, 178363030000, 117601770000, 177977220000, 118184830000, 177589510000, 118766630000,
  177199900000, 119347150000, 176808390000, 119926390000, 176414980000, 120504360000, 176019690000, 121081030000,
  175622510000, 121656400000, 175223450000, 122230470000, 174822520000, 122803230000, 174419710000, 123374680000,
  174015030000, 123944800000, 173608490000, 124513600000, 173200100000, 125081070000, 172789840000, 125647190000,
  172377740000, 126211970000, 171963790000, 126775400000, 171548000000, 127337470000, 171130370000, 127898180000,
  170710910000, 128457510000, 170289620000, 129015480000, 169866500000, 129572060000, 169441570000, 130127250000,
  169014820000, 130681050000, 168586270000, 131233440000, 168155900000, 131784440000, 167723740000, 132334020000,
  167289780000, 132882190000, 166854030000, 133428930000, 166416490000, 133974240000, 165977170000, 134518120000,
  165536080000, 135060560000, 165093210000, 135601550000, 164648570000, 136141090000, 164202170000, 136679170000,
  163754010000, 137215790000, 163304090000, 137750930000, 162852430000, 138284610000, 162399020000, 138816800000,
  161943880000, 139347500000, 161487000000, 139876720000, 161028390000, 140404430000, 160568050000, 140930640000,
  160106000000, 141455350000, 159642230000, 141978530000, 159176760000, 142500200000, 158709570000, 143020340000,
  158240690000, 143538950000, 157770110000, 144056020000, 157297850000, 144571550000, 156823900000, 145085530000,
  156348270000, 145597960000, 155870960000, 146108830000, 155391990000, 146618130000, 154911350000, 147125860000,
  154429050000, 147632020000, 153945100000, 148136600000, 153459500000, 148639590000, 152972260000, 149140990000,
  152483380000, 149640790000, 151992870000, 150138990000, 151500720000, 150635580000, 151006960000, 151130550000,
  150511580000, 151623910000, 150014590000, 152115650000, 149515990000, 152605750000, 149015790000, 153094230000,
  148513990000, 153581060000, 148010600000, 154066250000, 147505630000, 154549780000, 146999080000, 155031670000,
  146490950000, 155511890000, 145981260000, 155990450000, 145470000000, 156467330000, 144957180000, 156942540000,
  144442810000, 157416070000, 143926900000, 157887920000, 143409440000, 158358070000, 142890450000, 158826530000,
  142369930000, 159293280000, 141847880000, 159758340000, 141324310000, 160221680000, 140799230000, 160683300000,
  140272640000, 161143200000, 139744550000, 161601380000, 139214970000, 162057830000, 138683890000, 162512540000,
  138151330000, 162965510000, 137617290000, 163416730000, 137081770000, 163866210000, 136544790000, 164313930000,
  136006340000, 164759890000, 135466440000, 165204090000, 134925080000, 165646520000, 134382280000, 166087170000,
  133838050000, 166526050000, 133292380000, 166963140000, 132745280000, 167398440000, 132196760000, 167831950000,
  131646820000, 168263660000, 131095480000, 168693580000, 130542730000, 169121680000, 129988580000, 169547970000,
  129433040000, 169972450000, 128876110000, 170395110000, 128317810000, 170815940000, 127758130000, 171234950000,
  127197080000, 171652120000, 126634670000, 172067450000, 126070900000, 172480940000, 125505790000, 172892580000,
  124939330000, 173302370000, 124371530000, 173710300000, 123802400000, 174116380000, 123231940000, 174520590000,
  122660160000, 174922930000, 122087080000, 175323390000, 121512680000, 175721980000, 120936980000, 176118690000,
  120359990000, 176513510000, 119781700000, 176906440000, 119202140000, 177297480000, 118621300000, 177686620000,
  118039180000, 178073850000, 117455810000, 178459180000, 116871170000, 178842600000, 116285290000, 179224100000,
  115698160000, 179603680000, 115109790000, 179981340000, 114520180000, 180357070000, 113929350000, 180730870000,
  113337300000, 181102740000, 112744040000, 181472660000, 112149570000, 181840650000, 111553900000, 182206680000,
  110957030000, 182570760000, 110358980000, 182932890000, 109759740000, 183293060000, 109159330000, 183651260000,
  108557750000, 184007500000, 107955010000, 184361770000, 107351110000, 184714070000, 106746060000, 185064380000,
  106139870000, 185412720000, 105532540000, 185759060000, 104924080000, 186103420000, 104314490000, 186445790000,
  103703790000, 186786160000, 103091980000, 187124530000, 102479070000, 187460890000, 101865060000, 187795250000,
  101249950000, 188127600000, 100633770000, 188457930000, 100016500000, 188786240000, 99398167000, 189112530000,
  98778766000, 189436800000, 98158308000, 189759040000, 97536799000, 190079240000, 96914245000, 190397420000,
  96290653000, 190713550000, 95666030000, 191027630000, 95040382000, 191339680000, 94413717000, 191649670000,
  93786040000, 191957610000, 93157359000, 192263500000, 92527681000, 192567330000, 91897011000, 192869090000,
  91265358000, 193168790000, 90632727000, 193466420000, 89999125000, 193761980000, 89364560000, 194055460000,
  88729037000, 194346870000, 88092565000, 194636190000, 87455149000, 194923430000, 86816796000, 195208580000,
  86177514000, 195491640000, 85537309000, 195772610000, 84896187000, 196051480000, 84254157000, 196328250000,
  83611224000, 196602920000, 82967396000, 196875490000, 82322680000, 197145940000, 81677081000, 197414290000,
  81030608000, 197680520000, 80383268000, 197944630000, 79735066000, 198206620000, 79086011000, 198466490000,
  78436108000, 198724240000, 77785366000, 198979860000, 77133791000, 199233340000, 76481389000, 199484700000,
  75828169000, 199733910000, 75174136000, 199980990000, 74519298000, 200225920000, 73863663000, 200468720000,
  73207236000, 200709360000, 72550025000, 200947850000, 71892038000, 201184200000, 71233280000, 201418390000,
  70573760000, 201650420000, 69913484000, 201880290000, 69252459000, 202108000000, 68590692000, 202333540000,
  67928191000, 202556920000, 67264963000, 202778130000, 66601014000, 202997170000, 65936352000, 203214030000,
  65270983000, 203428720000, 64604916000, 203641230000, 63938157000, 203851560000, 63270713000, 204059710000,
  62602592000, 204265670000, 61933800000, 204469440000, 61264345000, 204671020000, 60594234000, 204870410000,
  59923474000, 205067610000, 59252072000, 205262610000, 58580035000, 205455410000, 57907372000, 205646010000,
  57234088000, 205834410000, 56560191000, 206020610000, 55885688000, 206204600000, 55210587000, 206386380000,
  54534895000, 206565950000, 53858619000, 206743310000, 53181766000, 206918450000, 52504343000, 207091380000,
  51826358000, 207262090000, 51147818000, 207430580000, 50468731000, 207596850000, 49789103000, 207760900000,
  49108941000, 207922720000, 48428254000, 208082320000, 47747048000, 208239680000, 47065331000, 208394820000,
  46383110000, 208547730000, 45700392000, 208698400000, 45017184000, 208846830000, 44333495000, 208993030000,
  43649330000, 209136990000, 42964699000, 209278720000, 42279607000, 209418200000, 41594062000, 209555440000,
  40908072000, 209690430000, 40221644000, 209823180000, 39534785000, 209953680000, 38847503000, 210081930000,
  38159805000, 210207930000, 37471698000, 210331690000, 36783189000, 210453190000, 36094287000, 210572430000,
  35404998000, 210689420000, 34715331000, 210804160000, 34025291000, 210916630000, 33334887000, 211026850000,
  32644126000, 211134810000, 31953015000, 211240510000, 31261563000, 211343940000, 30569775000, 211445110000,
  29877660000, 211544020000, 29185225000, 211640660000, 28492478000, 211735040000, 27799425000, 211827140000,
  27106075000, 211916980000, 26412434000, 212004550000, 25718511000, 212089850000, 25024312000, 212172880000,
  24329845000, 212253630000, 23635117000, 212332120000, 22940137000, 212408330000, 22244911000, 212482260000,
  21549446000, 212553920000, 20853751000, 212623300000, 20157832000, 212690400000, 19461698000, 212755230000,
  18765355000, 212817780000, 18068811000, 212878050000, 17372074000, 212936040000, 16675151000, 212991750000,
  15978049000, 213045180000, 15280776000, 213096330000, 14583339000, 213145190000, 13885746000, 213191770000,
  13188005000, 213236070000, 12490122000, 213278090000, 11792105000, 213317820000, 11093963000, 213355270000,
  10395701000, 213390430000, 9697327900, 213423310000, 8998851100, 213453900000, 8300277900, 213482200000, 7601615800,
  213508220000, 6902872300, 213531960000, 6204054900, 213553400000, 5505171100, 213572560000, 4806228300,
  213589430000, 4107234000, 213604020000, 3408195700, 213616320000, 2709121000, 213626330000, 2010017200,
  213634050000, 1310891900, 213639480000, 611752550, 213642630000]

/-- `mdct_win_2m5_8k`, src/tables.c:1480-1491, divided by `10^10`. -/
def win_2m5_8k : List Int := [
  67379144, 273228958, 616356097, 1119125040, 1787053500, 2607524990, 3549776380, 4567696750, 5605239270, 6603665350,
  7509434220, 8281382320, 8895850180, 9348747730, 9654057030, 9839026330, 9937180880, 9980987310, 9996266370,
  9999772910, 9999772910, 9996266370, 9980987310, 9937180880, 9839026330, 9654057030, 9348747730, 8895850180,
  8281382320, 7509434220, 6603665350, 5605239270, 4567696750, 3549776380, 2607524990, 1787053500, 1119125040,
  616356097, 273228958, 67379144]

/-- `mdct_win_2m5_16k`, src/tables.c:1493-1514, divided by `10^11`. -/
def win_2m5_16k : List Int := [
  476441615, 1204636280, 2226396540, 3580223110, 5299054650, 7408518400, 9925385920, 12856311800, 16196924400,
  19931324100, 24032028200, 28460381800, 33167432300, 38095245800, 43178620200, 48347131600, 53527432700, 58645709800,
  63630191600, 68413601900, 72935444500, 77144012900, 80998029100, 84467827900, 87536020400, 90197598400, 92459462700,
  94339394900, 95864522500, 97069365000, 97993583100, 98679580700, 99170132800, 99506214500, 99725191700, 99859501400,
  99935889500, 99975212700, 99992744000, 99998865000, 99998865000, 99992744000, 99975212700, 99935889500, 99859501400,
  99725191700, 99506214500, 99170132800, 98679580700, 97993583100, 97069365000, 95864522500, 94339394900, 92459462700,
  90197598400, 87536020400, 84467827900, 80998029100, 77144012900, 72935444500, 68413601900, 63630191600, 58645709800,
  53527432700, 48347131600, 43178620200, 38095245800, 33167432300, 28460381800, 24032028200, 19931324100, 16196924400,
  12856311800, 9925385920, 7408518400, 5299054650, 3580223110, 2226396540, 1204636280, 476441615]

/-- `mdct_win_2m5_24k`, src/tables.c:1516-1547, divided by `10^11`. -/
def win_2m5_24k : List Int := [
  389013421, 820259508, 1370235560, 2052968530, 2880307730, 3862785140, 5009569720, 6328296540, 7824881090,
  9503346510, 11365674900, 13411688800, 15638967100, 18042798100, 20616172700, 23349818100, 26232272000, 29249999100,
  32387545000, 35627728800, 38951869400, 42340041600, 45771359400, 49224279200, 52676919000, 56107386800, 59494112000,
  62816173700, 66053618900, 69187764600, 72201476600, 75079420800, 77808279300, 80376928500, 82776573700, 85000836500,
  87045794500, 88909969400, 90594265200, 92101856000, 93438027300, 94609972700, 95626552600, 96498020200, 97235723900,
  97851793100, 98358819800, 98769543400, 99096551900, 99352007700, 99547407800, 99693386100, 99799562400, 99874442200,
  99925366600, 99958510500, 99978924400, 99990611800, 99996635800, 99999243300, 99999243300, 99996635800, 99990611800,
  99978924400, 99958510500, 99925366600, 99874442200, 99799562400, 99693386100, 99547407800, 99352007700, 99096551900,
  98769543400, 98358819800, 97851793100, 97235723900, 96498020200, 95626552600, 94609972700, 93438027300, 92101856000,
  90594265200, 88909969400, 87045794500, 85000836500, 82776573700, 80376928500, 77808279300, 75079420800, 72201476600,
  69187764600, 66053618900, 62816173700, 59494112000, 56107386800, 52676919000, 49224279200, 45771359400, 42340041600,
  38951869400, 35627728800, 32387545000, 29249999100, 26232272000, 23349818100, 20616172700, 18042798100, 15638967100,
  13411688800, 11365674900, 9503346510, 7824881090, 6328296540, 5009569720, 3862785140, 2880307730, 2052968530,
  1370235560, 820259508, 389013421]

/-- `mdct_win_2m5_32k`, src/tables.c:1549-1590, divided by `10^11`. -/
def win_2m5_32k : List Int := [
  336895835, 645555741, 1014308080, 1452126850, 1965076730, 2558352800, 3236628530, 4004117870, 4864564180,
  5821207080, 6876742900, 8033284980, 9292326600, 10654708100, 12120589300, 13689427500, 15359962300, 17130206600,
  18997445500, 20958241300, 23008446800, 25143225500, 27357079000, 29643881600, 31996921200, 34408947600, 36872225800,
  39378595600, 41919535300, 44486230900, 47069647500, 49660605000, 52249854600, 54828157500, 57386363600, 59915489600,
  62406796400, 64851863300, 67242660500, 69571616100, 71831679900, 74016380700, 76119878000, 78137006400, 80063313100,
  81895087000, 83629379600, 85264017600, 86797605400, 88229520500, 89559897600, 90789606000, 91920216500, 92953961500,
  93893686300, 94742794100, 95505184600, 96185187100, 96787490000, 97317066200, 97779098600, 98178903400, 98521855500,
  98813316700, 99058566400, 99262738800, 99430765800, 99567327300, 99676809400, 99763271800, 99830424000, 99881610000,
  99919803000, 99947607500, 99967268800, 99980690500, 99989456100, 99994855800, 99997916300, 99999432500, 99999432500,
  99997916300, 99994855800, 99989456100, 99980690500, 99967268800, 99947607500, 99919803000, 99881610000, 99830424000,
  99763271800, 99676809400, 99567327300, 99430765800, 99262738800, 99058566400, 98813316700, 98521855500, 98178903400,
  97779098600, 97317066200, 96787490000, 96185187100, 95505184600, 94742794100, 93893686300, 92953961500, 91920216500,
  90789606000, 89559897600, 88229520500, 86797605400, 85264017600, 83629379600, 81895087000, 80063313100, 78137006400,
  76119878000, 74016380700, 71831679900, 69571616100, 67242660500, 64851863300, 62406796400, 59915489600, 57386363600,
  54828157500, 52249854600, 49660605000, 47069647500, 44486230900, 41919535300, 39378595600, 36872225800, 34408947600,
  31996921200, 29643881600, 27357079000, 25143225500, 23008446800, 20958241300, 18997445500, 17130206600, 15359962300,
  13689427500, 12120589300, 10654708100, 9292326600, 8033284980, 6876742900, 5821207080, 4864564180, 4004117870,
  3236628530, 2558352800, 1965076730, 1452126850, 1014308080, 645555741, 336895835]

/-- `mdct_win_2m5_48k`, src/tables.c:1592-1653, divided by `10^11`. -/
def win_2m5_48k : List Int := [
  275074638, 477524515, 699126548, 947011816, 1224415760, 1533559470, 1876266770, 2254154340, 2668701420, 3121277070,
  3613150080, 4145491000, 4719370520, 5335755880, 5995506490, 6699369200, 7447973420, 8241826580, 9081309670,
  9966673320, 10898034200, 11875371900, 12898526500, 13967196400, 15080937200, 16239160400, 17441133800, 18685981300,
  19972684400, 21300084100, 22666882500, 24071646500, 25512811000, 26988683600, 28497448800, 30037174100, 31605815400,
  33201224100, 34821154000, 36463268700, 38125149900, 39804305400, 41498178700, 43204157600, 44919583900, 46641763000,
  48367974400, 50095481200, 51821540700, 53543415000, 55258380700, 56963740200, 58656830900, 60335036400, 61995795700,
  63636613100, 65255068000, 66848823700, 68415636200, 69953362400, 71459968400, 72933536400, 74372271500, 75774508200,
  77138715800, 78463503100, 79747623000, 80989975800, 82189611900, 83345733900, 84457697800, 85525013400, 86547344100,
  87524505400, 88456463500, 89343332100, 90185368900, 90982971800, 91736673500, 92447136000, 93115143900, 93741598200,
  94327507700, 94873981900, 95382221500, 95853510200, 96289204800, 96690725900, 97059547900, 97397189100, 97705201600,
  97985161500, 98238658900, 98467288200, 98672638900, 98856286300, 99019783000, 99164651000, 99292374000, 99404390500,
  99502087500, 99586795400, 99659782700, 99722252700, 99775339900, 99820107700, 99857547100, 99888575600, 99914037600,
  99934704400, 99951276300, 99964383800, 99974590700, 99982396600, 99988240300, 99992503700, 99995515700, 99997556100,
  99998859800, 99999621700, 99999621700, 99998859800, 99997556100, 99995515700, 99992503700, 99988240300, 99982396600,
  99974590700, 99964383800, 99951276300, 99934704400, 99914037600, 99888575600, 99857547100, 99820107700, 99775339900,
  99722252700, 99659782700, 99586795400, 99502087500, 99404390500, 99292374000, 99164651000, 99019783000, 98856286300,
  98672638900, 98467288200, 98238658900, 97985161500, 97705201600, 97397189100, 97059547900, 96690725900, 96289204800,
  95853510200, 95382221500, 94873981900, 94327507700, 93741598200, 93115143900, 92447136000, 91736673500, 90982971800,
  90185368900, 89343332100, 88456463500, 87524505400, 86547344100, 85525013400, 84457697800, 83345733900, 82189611900,
  80989975800, 79747623000, 78463503100, 77138715800, 75774508200, 74372271500, 72933536400, 71459968400, 69953362400,
  68415636200, 66848823700, 65255068000, 63636613100, 61995795700, 60335036400, 58656830900, 56963740200, 55258380700,
  53543415000, 51821540700, 50095481200, 48367974400, 46641763000, 44919583900, 43204157600, 41498178700, 39804305400,
  38125149900, 36463268700, 34821154000, 33201224100, 31605815400, 30037174100, 28497448800, 26988683600, 25512811000,
  24071646500, 22666882500, 21300084100, 19972684400, 18685981300, 17441133800, 16239160400, 15080937200, 13967196400,
  12898526500, 11875371900, 10898034200, 9966673320, 9081309670, 8241826580, 7447973420, 6699369200, 5995506490,
  5335755880, 4719370520, 4145491000, 3613150080, 3121277070, 2668701420, 2254154340, 1876266770, 1533559470,
  1224415760, 947011816, 699126548, 477524515, 275074638]

/-- `mdct_win_2m5_48k_hr`, src/tables.c:1657-1718, divided by `10^15`. -/
def win_2m5_48k_hr : List Int := [
  192887526, 1268623120, 3736942970, 8649386470, 17524998800, 32510040900, 56549950400, 93586531900, 148780979000,
  228761899000, 341896375000, 498580979000, 711548259000, 996182440000, 1370837450000, 1857146740000, 2480315980000,
  3269384150000, 4257441500000, 5481788420000, 6984022450000, 8810037750000, 11009923200000, 13637756900000,
  16751270700000, 20411411300000, 24681752500000, 29627826100000, 35316310800000, 41814155900000, 49187600600000,
  57501155900000, 66816546000000, 77191613600000, 88679231700000, 101326235000000, 115172401000000, 130249396000000,
  146579877000000, 164176553000000, 183041364000000, 203164726000000, 224524856000000, 247087196000000,
  270803988000000, 295613915000000, 321442008000000, 348199695000000, 375785023000000, 404083431000000,
  432968378000000, 462302625000000, 491939783000000, 521726012000000, 551502347000000, 581106782000000,
  610377192000000, 639154077000000, 667283058000000, 694617987000000, 721023440000000, 746377110000000,
  770571768000000, 793517113000000, 815140784000000, 835389018000000, 854227006000000, 871638596000000,
  887625158000000, 902204990000000, 915411413000000, 927291155000000, 937902570000000, 947313428000000,
  955598950000000, 962839723000000, 969119847000000, 974524975000000, 979140759000000, 983051181000000,
  986337543000000, 989076972000000, 991342008000000, 993199587000000, 994710743000000, 995930433000000,
  996907234000000, 997683644000000, 998296261000000, 998776138000000, 999149203000000, 999436796000000,
  999656200000000, 999821365000000, 999943137000000, 1000030160000000, 1000089170000000, 1000125290000000,
  1000142810000000, 1000145080000000, 1000134940000000, 1000114920000000, 1000087260000000, 1000054120000000,
  1000017640000000, 999979734000000, 999942362000000, 999907196000000, 999876022000000, 999850094000000,
  999830663000000, 999818563000000, 999814391000000, 999818325000000, 999830186000000, 999849498000000,
  999875486000000, 999906898000000, 999942422000000, 999980509000000, 1000019430000000, 1000057580000000,
  1000093100000000, 1000124570000000, 1000150440000000, 1000169870000000, 1000181670000000, 1000185610000000,
  1000181440000000, 1000169280000000, 1000149850000000, 1000123740000000, 1000092270000000, 1000056620000000,
  1000018360000000, 999978960000000, 999939740000000, 999902129000000, 999867082000000, 999835134000000,
  999806285000000, 999779761000000, 999753773000000, 999725282000000, 999689877000000, 999641180000000,
  999570787000000, 999467850000000, 999318600000000, 999105930000000, 998809040000000, 998403072000000,
  997858584000000, 997141182000000, 996211350000000, 995023966000000, 993528485000000, 991668522000000,
  989382327000000, 986602664000000, 983257711000000, 979271173000000, 974563420000000, 969052374000000,
  962654769000000, 955287457000000, 946869195000000, 937322080000000, 926573634000000, 914558887000000,
  901221931000000, 886518419000000, 870416999000000, 852901220000000, 833971083000000, 813643873000000,
  791955233000000, 768959403000000, 744728804000000, 719353676000000, 692940772000000, 665611804000000,
  637501359000000, 608754635000000, 579524696000000, 549970031000000, 520251453000000, 490529478000000,
  460961968000000, 431701392000000, 402893007000000, 374672860000000, 347166419000000, 320487350000000,
  294736743000000, 270002425000000, 246358722000000, 223866433000000, 202572897000000, 182512373000000,
  163706377000000, 146164373000000, 129884347000000, 114853561000000, 101049446000000, 88440425700000, 76986894000000,
  66642195000000, 57353653000000, 49063675100000, 41710782800000, 35230714800000, 29557490700000, 24624416600000,
  20365055700000, 16714116600000, 13608244200000, 10986703400000, 8791949600000, 6970080550000, 5471162030000,
  4249438180000, 3263433460000, 2475952030000, 1853994090000, 1368596570000, 994618051000, 710477470000, 497864152000,
  341428356000, 228464938000, 148598730000, 93478978700, 56489421700, 32477935700, 17509224600, 8642407010,
  3734302250, 1267861310, 192776696]

/-- `mdct_win_2m5_96k_hr`, src/tables.c:1720-1841, divided by `10^15`. -/
def win_2m5_96k_hr : List Int := [
  136335345, 457767612, 997567554, 1840776240, 3092248330, 4880943830, 7363817990, 10730007500, 15205386300,
  21057505400, 28600936300, 38203012100, 50289989300, 65353589900, 83957995200, 106747175000, 134452668000,
  167901671000, 208025551000, 255868625000, 312597229000, 379509147000, 458043127000, 549788703000, 656496093000,
  780086033000, 922659819000, 1086509200000, 1274126000000, 1488211680000, 1731686640000, 2007698640000,
  2319630930000, 2671110680000, 3066014730000, 3508476070000, 4002889150000, 4553912670000, 5166474730000,
  5845770240000, 6597266070000, 7426694970000, 8340055120000, 9343603630000, 10443852300000, 11647557800000,
  12961709900000, 14393522400000, 15950417100000, 17640005800000, 19470080700000, 21448586100000, 23583594700000,
  25883296500000, 28355961700000, 31009923700000, 33853542100000, 36895182000000, 40143180600000, 43605808200000,
  47291252800000, 51207572200000, 55362667900000, 59764247400000, 64419798600000, 69336548400000, 74521429800000,
  79981036500000, 85721626900000, 91749049700000, 98068729000000, 104685634000000, 111604236000000, 118828513000000,
  126361862000000, 134207115000000, 142366499000000, 150841609000000, 159633383000000, 168742076000000,
  178167209000000, 187907621000000, 197961360000000, 208325714000000, 218997195000000, 229971498000000,
  241243511000000, 252807260000000, 264655977000000, 276782036000000, 289176911000000, 301831275000000,
  314734906000000, 327876776000000, 341245025000000, 354826927000000, 368608981000000, 382576853000000,
  396715522000000, 411009163000000, 425441355000000, 439994961000000, 454652220000000, 469394863000000,
  484204173000000, 499060899000000, 513945460000000, 528838038000000, 543718576000000, 558566749000000,
  573362410000000, 588085234000000, 602715075000000, 617232025000000, 631616414000000, 645848989000000,
  659910858000000, 673783839000000, 687450290000000, 700893283000000, 714096606000000, 727045000000000,
  739724100000000, 752120554000000, 764221907000000, 776016891000000, 787495315000000, 798648119000000,
  809467375000000, 819946468000000, 830079675000000, 839862764000000, 849292517000000, 858366787000000,
  867084682000000, 875446379000000, 883453131000000, 891107082000000, 898411512000000, 905370474000000,
  911989033000000, 918272913000000, 924228728000000, 929863691000000, 935185611000000, 940202892000000,
  944924474000000, 949359715000000, 953518271000000, 957410157000000, 961045623000000, 964435160000000,
  967589259000000, 970518589000000, 973233819000000, 975745618000000, 978064537000000, 980201006000000,
  982165277000000, 983967602000000, 985617757000000, 987125397000000, 988499880000000, 989750206000000,
  990885139000000, 991913080000000, 992841959000000, 993679583000000, 994433045000000, 995109439000000,
  995715141000000, 996256351000000, 996738791000000, 997167945000000, 997548699000000, 997885823000000,
  998183608000000, 998446047000000, 998676717000000, 998879075000000, 999056041000000, 999210536000000,
  999344945000000, 999461591000000, 999562562000000, 999649644000000, 999724448000000, 999788404000000,
  999842882000000, 999888957000000, 999927700000000, 999959946000000, 999986470000000, 1000007990000000,
  1000025150000000, 1000038390000000, 1000048160000000, 1000054960000000, 1000059130000000, 1000060920000000,
  1000060800000000, 1000058770000000, 1000055190000000, 1000050310000000, 1000044350000000, 1000037310000000,
  1000029680000000, 1000021340000000, 1000012520000000, 1000003340000000, 999994040000000, 999984682000000,
  999975443000000, 999966383000000, 999957621000000, 999949336000000, 999941528000000, 999934316000000,
  999927878000000, 999922156000000, 999917269000000, 999913335000000, 999910295000000, 999908268000000,
  999907196000000, 999907196000000, 999908149000000, 999910176000000, 999913156000000, 999917090000000,
  999921918000000, 999927640000000, 999934137000000, 999941349000000, 999949217000000, 999957681000000,
  999966562000000, 999975860000000, 999985397000000, 999995112000000, 1000004890000000, 1000014540000000,
  1000024080000000, 1000033380000000, 1000042320000000, 1000050780000000, 1000058650000000, 1000065920000000,
  1000072360000000, 1000078080000000, 1000082970000000, 1000086900000000, 1000089880000000, 1000091790000000,
  1000092860000000, 1000092740000000, 1000091790000000, 1000089650000000, 1000086670000000, 1000082610000000,
  1000077720000000, 1000072000000000, 1000065450000000, 1000058170000000, 1000050310000000, 1000041720000000,
  1000032780000000, 1000023370000000, 1000013710000000, 1000003700000000, 999993682000000, 999983490000000,
  999973357000000, 999963224000000, 999953210000000, 999943376000000, 999933660000000, 999924064000000,
  999914587000000, 999905109000000, 999895573000000, 999885738000000, 999875546000000, 999864578000000,
  999852657000000, 999839306000000, 999824166000000, 999806523000000, 999785900000000, 999761462000000,
  999732316000000, 999697566000000, 999655962000000, 999606311000000, 999547124000000, 999476731000000,
  999393344000000, 999294996000000, 999179363000000, 999043941000000, 998886049000000, 998702645000000,
  998490512000000, 998246014000000, 997965276000000, 997644246000000, 997278214000000, 996862471000000,
  996391773000000, 995860577000000, 995262980000000, 994592726000000, 993843138000000, 993007302000000,
  992077827000000, 991046965000000, 989906728000000, 988648713000000, 987264156000000, 985744119000000,
  984079301000000, 982260108000000, 980276704000000, 978119195000000, 975777209000000, 973240614000000,
  970498860000000, 967541456000000, 964357972000000, 960937798000000, 957270682000000, 953346252000000,
  949154437000000, 944685459000000, 939929724000000, 934878111000000, 929521918000000, 923852861000000,
  917863250000000, 911546052000000, 904894829000000, 897903919000000, 890568554000000, 882884681000000,
  874849200000000, 866460025000000, 857716084000000, 848617196000000, 839164436000000, 829359889000000,
  819206893000000, 808709860000000, 797874272000000, 786707044000000, 775215983000000, 763410211000000,
  751299858000000, 738896310000000, 726211846000000, 713259816000000, 700054646000000, 686611593000000,
  672946632000000, 659076810000000, 645019531000000, 630793154000000, 616416335000000, 601908267000000,
  587288618000000, 572577178000000, 557793975000000, 542959273000000, 528093219000000, 513215959000000,
  498347521000000, 483507633000000, 468715757000000, 453991085000000, 439352304000000, 424817562000000,
  410404533000000, 396130294000000, 382011205000000, 368063033000000, 354300767000000, 340738595000000,
  327390045000000, 314267725000000, 301383466000000, 288748264000000, 276372313000000, 264264882000000,
  252434462000000, 240888610000000, 229634136000000, 218676925000000, 208022103000000, 197673932000000,
  187635899000000, 177910715000000, 168500274000000, 159405768000000, 150627658000000, 142165691000000,
  134018898000000, 126185730000000, 118663922000000, 111450672000000, 104542568000000, 97935654200000, 91625459500000,
  85607029500000, 79874947700000, 74423372700000, 69246076000000, 64336456400000, 59687599500000, 55292300900000,
  51143087400000, 47232259100000, 43551940500000, 40094081300000, 36850512000000, 33812981100000, 30973162500000,
  28322711600000, 25853281800000, 23556558400000, 21424282300000, 19448282200000, 17620494600000, 15932992100000,
  14377997300000, 12947910500000, 11635322100000, 10433029400000, 9334054780000, 8331651800000, 7419320750000,
  6590812470000, 5840139000000, 5161574580000, 4549662580000, 3999214150000, 3505309110000, 3063294570000,
  2668782840000, 2317646050000, 2006012480000, 1730260320000, 1487010160000, 1273118190000, 1085667870000,
  921960978000, 779508497000, 656021410000, 549400807000, 457728049000, 379254925000, 312393560000, 255706662000,
  207897814000, 167801816000, 134375354000, 106687941000, 83913139000, 65320055000, 50265276500, 38185098700,
  28588187000, 21048625100, 15199355400, 10726033900, 7361295500, 4879415430, 3091377950, 1840321150, 997358256,
  457689993, 136315705]

/-- `mdct_win_5m_8k`, src/tables.c:1845-1864, divided by `10^12`. -/
def win_5m_8k : List Int := [
  995908659, 3819056790, 9540832610, 19216598000, 33827190800, 54248316700, 81207776700, 115217189000, 156494233000,
  204936342000, 260116658000, 321281416000, 387347300000, 456949708000, 528519296000, 600352249000, 670689638000,
  737804446000, 800092531000, 856140918000, 904827229000, 945368503000, 977350743000, 1000800870000, 1016171590000,
  1024315250000, 1026415430000, 1023858370000, 1018135710000, 1010794820000, 1003406510000, 996783127000,
  992099552000, 989220694000, 987965832000, 988127353000, 989480554000, 991784992000, 994784758000, 998211967000,
  1001791240000, 1005242580000, 1008283050000, 1010631280000, 1012015300000, 1012180750000, 1010896770000,
  1007963360000, 1003227260000, 996605055000, 986828423000, 973125029000, 954063648000, 928386428000, 895091686000,
  853476936000, 803209093000, 744473520000, 678078703000, 605397045000, 528207751000, 448655296000, 369187599000,
  292456641000, 221071854000, 157314858000, 103052576000, 59827322400, 28718319200, 9683884930]

/-- `mdct_win_5m_16k`, src/tables.c:1866-1902, divided by `10^12`. -/
def win_5m_16k : List Int := [
  614338818, 1489582830, 2884104960, 4934298830, 7779130460, 11549106100, 16371556200, 22371161600, 29661596900,
  38356633300, 48556109900, 60350557400, 73822882000, 89035636900, 106035623000, 124853486000, 145493189000,
  167943556000, 192172862000, 218123826000, 245725974000, 274883943000, 305482471000, 337387380000, 370441593000,
  404474963000, 439300436000, 474722545000, 510534149000, 546520192000, 582465810000, 618145266000, 653341146000,
  687836730000, 721417603000, 753888797000, 785054657000, 814739745000, 842781936000, 869037674000, 893393548000,
  915748356000, 936027020000, 954173114000, 970163547000, 984003644000, 995719942000, 1005374270000, 1013046660000,
  1018843380000, 1022896950000, 1025355290000, 1026382880000, 1026155530000, 1024853970000, 1022664600000,
  1019779400000, 1016391690000, 1012697030000, 1008885190000, 1005378740000, 1001563780000, 998253156000,
  995434664000, 993095027000, 991217091000, 989780519000, 988762494000, 988138324000, 987881941000, 987966213000,
  988363051000, 989043407000, 989977232000, 991133456000, 992480044000, 993984121000, 995612147000, 997330059000,
  999103363000, 1000897440000, 1002677090000, 1004407190000, 1006052290000, 1007576930000, 1008945860000,
  1010124240000, 1011077970000, 1011773960000, 1012180360000, 1012266710000, 1012004060000, 1011365220000,
  1010325000000, 1008860730000, 1006952980000, 1004586270000, 1001749900000, 998438663000, 994650033000, 989575685000,
  983830313000, 976999916000, 968914116000, 959403812000, 948308632000, 935486022000, 920810131000, 904173226000,
  885488225000, 864686495000, 841723747000, 816587571000, 789298635000, 759917189000, 728547452000, 695328294000,
  660433402000, 624066143000, 586446142000, 547816066000, 508449976000, 468636143000, 428678989000, 388903272000,
  349643142000, 311236082000, 274012847000, 238284723000, 204337983000, 172430586000, 142793979000, 115638588000,
  91158217700, 69527490400, 50889754100, 35334301900, 22866804100, 13380050200, 6640506530]

/-- `mdct_win_5m_24k`, src/tables.c:1904-1958, divided by `10^12`. -/
def win_5m_24k : List Int := [
  508722763, 995908659, 1682208010, 2609697260, 3819056790, 5349319590, 7243906380, 9540832610, 12276376400,
  15489502400, 19216598000, 23493696200, 28351995800, 33827190800, 39949395400, 46747752400, 54248316700, 62477707800,
  71458359200, 81207776700, 91744004100, 103076496000, 115217189000, 128166571000, 141926438000, 156494233000,
  171859319000, 188013425000, 204936342000, 222612306000, 241015124000, 260116658000, 279887101000, 300288014000,
  321281416000, 342820846000, 364859656000, 387347300000, 410229495000, 433449453000, 456949708000, 480669640000,
  504547382000, 528519296000, 552519610000, 576487245000, 600352249000, 624050987000, 647518259000, 670689638000,
  693502907000, 715892752000, 737804446000, 759178724000, 779958661000, 800092531000, 819531865000, 838228896000,
  856140918000, 873231695000, 889470202000, 904827229000, 919273638000, 932794041000, 945368503000, 956988393000,
  967648642000, 977350743000, 986102783000, 993912241000, 1000800870000, 1006787810000, 1011901270000, 1016171590000,
  1019636410000, 1022336610000, 1024315250000, 1025621300000, 1026303440000, 1026415430000, 1026007930000,
  1025137440000, 1023858370000, 1022226940000, 1020300550000, 1018135710000, 1015792150000, 1013325970000,
  1010794820000, 1008265130000, 1006046870000, 1003406510000, 1000977400000, 998770454000, 996783127000, 995011891000,
  993452397000, 992099552000, 990947600000, 989990243000, 989220694000, 988631804000, 988216090000, 987965832000,
  987873077000, 987929693000, 988127353000, 988457554000, 988911587000, 989480554000, 990155346000, 990926656000,
  991784992000, 992720684000, 993723921000, 994784758000, 995893149000, 997038957000, 998211967000, 999402034000,
  1000598320000, 1001791240000, 1002969840000, 1004123790000, 1005242580000, 1006315720000, 1007332690000,
  1008283050000, 1009156420000, 1009942540000, 1010631280000, 1011212740000, 1011677230000, 1012015300000,
  1012217780000, 1012275790000, 1012180750000, 1011924430000, 1011498920000, 1010896770000, 1010110970000,
  1009135090000, 1007963360000, 1006590760000, 1005013120000, 1003227260000, 1001231060000, 999023556000,
  996605055000, 993989471000, 990453920000, 986828423000, 982771674000, 978220667000, 973125029000, 967432353000,
  961094704000, 954063648000, 946295299000, 937748911000, 928386428000, 918176261000, 907086156000, 895091686000,
  882169624000, 868302529000, 853476936000, 837685201000, 820927526000, 803209093000, 784545048000, 764955485000,
  744473520000, 723134807000, 700986056000, 678078703000, 654468651000, 630221215000, 605397045000, 580071577000,
  554312928000, 528207751000, 501836972000, 475290296000, 448655296000, 422028112000, 395505797000, 369187599000,
  343173285000, 317563302000, 292456641000, 267946378000, 244123133000, 221071854000, 198871915000, 177596763000,
  157314858000, 138090336000, 119983750000, 103052576000, 87350850100, 72928115800, 59827322400, 48081788400,
  37711353000, 28718319200, 21083520300, 14762894100, 9683884930, 5642168790]

/-- `mdct_win_5m_32k`, src/tables.c:1960-2031, divided by `10^12`. -/
def win_5m_32k : List Int := [
  459588635, 791932361, 1227927170, 1783653270, 2479549410, 3329799450, 4353535480, 5564965160, 6986108360,
  8629882320, 10513434100, 12650826400, 15060904500, 17755912300, 20754759800, 24068137200, 27712078600, 31699332500,
  36046096400, 40761286400, 45860381200, 51351366800, 57247802200, 63558547400, 70294507300, 77459872000, 85066353700,
  93116416200, 101616296000, 110569081000, 119978929000, 129841729000, 140162380000, 150937156000, 162163230000,
  173835412000, 185952036000, 198500883000, 211477855000, 224873256000, 238676395000, 252872945000, 267454701000,
  282403147000, 297705015000, 313341912000, 329297670000, 345549016000, 362079505000, 378864867000, 395885158000,
  413114379000, 430530830000, 448107672000, 465822779000, 483646639000, 501556485000, 519522807000, 537519704000,
  555518384000, 573495781000, 591418665000, 609262289000, 626998116000, 644600201000, 662038458000, 679290655000,
  696325643000, 713119439000, 729646991000, 745886459000, 761809472000, 777395845000, 792620875000, 807466639000,
  821910156000, 835934316000, 849518047000, 862648584000, 875308323000, 887488472000, 899173772000, 910352743000,
  921014413000, 931155619000, 940764474000, 949838224000, 958373260000, 966369041000, 973823562000, 980744251000,
  987129797000, 992987227000, 998324140000, 1003150760000, 1007473710000, 1011309150000, 1014666680000, 1017563340000,
  1020014680000, 1022039870000, 1023654260000, 1024881620000, 1025739290000, 1026250710000, 1026436670000,
  1026320860000, 1025922920000, 1025269980000, 1024382190000, 1023284940000, 1022000830000, 1020555970000,
  1018971390000, 1017275180000, 1015489130000, 1013639360000, 1011747750000, 1009840840000, 1007939760000,
  1006407400000, 1004374830000, 1002469810000, 1000689070000, 999034600000, 997502490000, 996094155000, 994805124000,
  993636273000, 992582654000, 991644701000, 990817076000, 990099845000, 989487369000, 988979432000, 988570179000,
  988259191000, 988040442000, 987913369000, 987871810000, 987915076000, 988036894000, 988236456000, 988507369000,
  988848709000, 989253949000, 989722041000, 990246329000, 990825634000, 991453181000, 992127681000, 992842250000,
  993595510000, 994380481000, 995195724000, 996034188000, 996894383000, 997769201000, 998657113000, 999550974000,
  1000449230000, 1001344690000, 1002235790000, 1003115290000, 1003981600000, 1004827470000, 1005651280000,
  1006445770000, 1007209350000, 1007934780000, 1008620500000, 1009259310000, 1009849740000, 1010384690000,
  1010862780000, 1011277040000, 1011626250000, 1011903570000, 1012107950000, 1012232760000, 1012277090000,
  1012234510000, 1012104320000, 1011880290000, 1011561970000, 1011143370000, 1010624320000, 1009999150000,
  1009268030000, 1008425700000, 1007472770000, 1006404480000, 1005222000000, 1003921160000, 1002503760000,
  1000966330000, 999311401000, 997536270000, 995644231000, 993633392000, 990867748000, 988232633000, 985362057000,
  982230509000, 978818585000, 975102633000, 971063185000, 966675967000, 961924219000, 956784199000, 951239430000,
  945270024000, 938861570000, 931994644000, 924659203000, 916838340000, 908521803000, 899696701000, 890356205000,
  880487793000, 870088421000, 859149213000, 847668639000, 835642897000, 823075389000, 809964930000, 796320451000,
  782146054000, 767454182000, 752256346000, 736570205000, 720409055000, 703797511000, 686754281000, 669304189000,
  651471096000, 633285483000, 614768539000, 595955378000, 576873796000, 557553429000, 538032014000, 518345403000,
  498525942000, 478615607000, 458647304000, 438664366000, 418704689000, 398812306000, 379026292000, 359391483000,
  339947413000, 320739242000, 301806111000, 283190595000, 264928837000, 247060855000, 229620112000, 212643372000,
  196160182000, 180203520000, 164799688000, 149978755000, 135764352000, 122184253000, 109260199000, 97017884500,
  85476802800, 74659763800, 64582543200, 55262811900, 46709769800, 38932444300, 31929760100, 25698106400, 20222592700,
  15483177800, 11449249100, 8076482660, 5300044080]

/-- `mdct_win_5m_48k`, src/tables.c:2033-2139, divided by `10^12`. -/
def win_5m_48k : List Int := [
  409010650, 614338818, 857175988, 1147015060, 1489582830, 1889770380, 2353000800, 2884104960, 3488213790, 4170040430,
  4934298830, 5787076510, 6733811740, 7779130460, 8927044960, 10182028900, 11549106100, 13033492200, 14639512900,
  16371556200, 18234553800, 20233094900, 22371161600, 24652373500, 27081019400, 29661596900, 32398848500, 35296017700,
  38356633300, 41584479300, 44983224200, 48556109900, 52305964800, 56236245800, 60350557400, 64651863200, 69141957500,
  73822882000, 78697093300, 83767616400, 89035636900, 94501992400, 100168019000, 106035623000, 112106022000,
  118378855000, 124853486000, 131530285000, 138410308000, 145493189000, 152777295000, 160260884000, 167943556000,
  175824562000, 183902012000, 192172862000, 200634430000, 209285388000, 218123826000, 227146226000, 236347921000,
  245725974000, 255277155000, 264998109000, 274883943000, 284929644000, 295130651000, 305482471000, 315979964000,
  326616979000, 337387380000, 348285592000, 359305769000, 370441593000, 381686239000, 393032978000, 404474963000,
  416005110000, 427615960000, 439300436000, 451051633000, 462861605000, 474722545000, 486626671000, 498566451000,
  510534149000, 522521279000, 534519051000, 546520192000, 558517277000, 570502154000, 582465810000, 594399172000,
  606294818000, 618145266000, 629942202000, 641676874000, 653341146000, 664927754000, 676429270000, 687836730000,
  699142147000, 710337961000, 721417603000, 732374610000, 743200803000, 753888797000, 764431550000, 774822315000,
  785054657000, 795122352000, 805019386000, 814739745000, 824277441000, 833626711000, 842781936000, 851738619000,
  860492087000, 869037674000, 877372045000, 885492794000, 893393548000, 901072709000, 908524940000, 915748356000,
  922741384000, 929501747000, 936027020000, 942314305000, 948362979000, 954173114000, 959743838000, 965073839000,
  970163547000, 975014336000, 979627719000, 984003644000, 988142677000, 992047045000, 995719942000, 999164081000,
  1002381310000, 1005374270000, 1008146720000, 1010703120000, 1013046660000, 1015181270000, 1017111640000,
  1018843380000, 1020381710000, 1021731100000, 1022896950000, 1023885460000, 1024702970000, 1025355290000,
  1025848240000, 1026188370000, 1026382880000, 1026438100000, 1026360130000, 1026155530000, 1025831460000,
  1025395430000, 1024853970000, 1024213480000, 1023481180000, 1022664600000, 1021770900000, 1020806920000,
  1019779400000, 1018696000000, 1017564420000, 1016391690000, 1015184920000, 1013950840000, 1012697030000,
  1011430750000, 1010158350000, 1008885190000, 1007592720000, 1006805600000, 1005378740000, 1004049050000,
  1002778360000, 1001563780000, 1000404920000, 999301484000, 998253156000, 997259546000, 996320213000, 995434664000,
  994602354000, 993822688000, 993095027000, 992418692000, 991792966000, 991217091000, 990690276000, 990211700000,
  989780519000, 989395860000, 989056824000, 988762494000, 988511936000, 988304203000, 988138324000, 988013316000,
  987928190000, 987881941000, 987873551000, 987901987000, 987966213000, 988065178000, 988197816000, 988363051000,
  988559796000, 988786953000, 989043407000, 989328032000, 989639690000, 989977232000, 990339493000, 990725297000,
  991133456000, 991562775000, 992012044000, 992480044000, 992965548000, 993467321000, 993984121000, 994514697000,
  995057793000, 995612147000, 996176492000, 996749554000, 997330059000, 997916725000, 998508264000, 999103363000,
  999700348000, 1000299740000, 1000897440000, 1001493960000, 1002087620000, 1002677090000, 1003261050000,
  1003838180000, 1004407190000, 1004966750000, 1005515560000, 1006052290000, 1006575640000, 1007084290000,
  1007576930000, 1008052280000, 1008509020000, 1008945860000, 1009361530000, 1009754740000, 1010124240000,
  1010468770000, 1010787090000, 1011077970000, 1011340210000, 1011572600000, 1011773960000, 1011943140000,
  1012078980000, 1012180360000, 1012246170000, 1012275310000, 1012266710000, 1012219320000, 1012132110000,
  1012004060000, 1011834210000, 1011621570000, 1011365220000, 1011064250000, 1010717790000, 1010325000000,
  1009885060000, 1009397210000, 1008860730000, 1008274950000, 1007639220000, 1006952980000, 1006215710000,
  1005426940000, 1004586270000, 1003693380000, 1002747980000, 1001749900000, 1000699000000, 999595249000,
  998438663000, 997229342000, 995967277000, 994650033000, 993240400000, 991251152000, 989575685000, 987771321000,
  985857748000, 983830313000, 981682263000, 979407449000, 976999916000, 974452836000, 971759750000, 968914116000,
  965910162000, 962742183000, 959403812000, 955888998000, 952192243000, 948308632000, 944233254000, 939960724000,
  935486022000, 930805297000, 925914697000, 920810131000, 915487360000, 909942607000, 904173226000, 898176373000,
  891949024000, 885488225000, 878791944000, 871858584000, 864686495000, 857273814000, 849619586000, 841723747000,
  833586272000, 825207443000, 816587571000, 807728037000, 798631159000, 789298635000, 779733095000, 769937953000,
  759917189000, 749675842000, 739217684000, 728547452000, 717671448000, 706596231000, 695328294000, 683873906000,
  672239531000, 660433402000, 648464360000, 636339500000, 624066143000, 611653033000, 599109864000, 586446142000,
  573669485000, 560788103000, 547816066000, 534761979000, 521636515000, 508449976000, 495213509000, 481938756000,
  468636143000, 455317077000, 441993995000, 428678989000, 415383779000, 402121106000, 388903272000, 375742544000,
  362651518000, 349643142000, 336729082000, 323922808000, 311236082000, 298680794000, 286269467000, 274012847000,
  261922833000, 250009844000, 238284723000, 226757849000, 215439100000, 204337983000, 193463677000, 182825032000,
  172430586000, 162288635000, 152407188000, 142793979000, 133456585000, 124402392000, 115638588000, 107172155000,
  99009858700, 91158217700, 83623448600, 76411403700, 69527490400, 62976564500, 56762842400, 50889754100, 45359833000,
  40174573100, 35334301900, 30838060600, 26683554200, 22866804100, 19382363400, 16223127200, 13380050200, 10842186000,
  8596753980, 6640506530, 5172703110]

/-- `mdct_win_5m_48k_hr`, src/tables.c:2143-2249, divided by `10^16`. -/
def win_5m_48k_hr : List Int := [
  975247545, 6413568490, 18887226400, 43700374600, 88505348700, 164097619000, 285265469000, 471757776000,
  749369574000, 1151138640000, 1718640560000, 2503364520000, 3568147370000, 4988636360000, 6854750100000,
  9272095050000, 12363300200000, 16269217000000, 21149949200000, 27185636600000, 34576968800000, 43545370000000,
  54332776900000, 67201010000000, 82430662600000, 100319488000000, 121180220000000, 145337880000000, 173126478000000,
  204885192000000, 240953956000000, 281668510000000, 327355117000000, 378324650000000, 434866548000000,
  497242436000000, 565679595000000, 640364513000000, 721436515000000, 808981732000000, 903027356000000,
  1003536810000000, 1110405400000000, 1223457080000000, 1342442180000000, 1467036600000000, 1596841960000000,
  1731387530000000, 1870133580000000, 2012476330000000, 2157754000000000, 2305254940000000, 2454226610000000,
  2603886130000000, 2753430600000000, 2902051210000000, 3048942980000000, 3193320040000000, 3334425990000000,
  3471547070000000, 3604024050000000, 3731263280000000, 3852742310000000, 3968020380000000, 4076742830000000,
  4178645610000000, 4273556470000000, 4361395540000000, 4442172940000000, 4515986740000000, 4583016340000000,
  4643516240000000, 4697810110000000, 4746280910000000, 4789363440000000, 4827534560000000, 4861304760000000,
  4891209600000000, 4917801020000000, 4941640500000000, 4963292180000000, 4983316960000000, 5002267360000000,
  5020683410000000, 5039089920000000, 5057992940000000, 5077879430000000, 5099211930000000, 5122433300000000,
  5147958990000000, 5176181790000000, 5207465890000000, 5242149830000000, 5280541780000000, 5322920680000000,
  5369530920000000, 5420584680000000, 5476256610000000, 5536684390000000, 5601964000000000, 5672150250000000,
  5747256280000000, 5827248690000000, 5912052390000000, 6001545790000000, 6095566150000000, 6193906070000000,
  6296319370000000, 6402521730000000, 6512193680000000, 6624985340000000, 6740518210000000, 6858391760000000,
  6978186370000000, 7099469300000000, 7221798900000000, 7344728110000000, 7467811700000000, 7590610380000000,
  7712693210000000, 7833642960000000, 7953060870000000, 8070567850000000, 8185808060000000, 8298451900000000,
  8408197760000000, 8514771460000000, 8617929820000000, 8717459440000000, 8813177940000000, 8904932140000000,
  8992598060000000, 9076082110000000, 9155317540000000, 9230263230000000, 9300905470000000, 9367253180000000,
  9429339770000000, 9487219450000000, 9540966150000000, 9590675230000000, 9636456370000000, 9678438310000000,
  9716762900000000, 9751585130000000, 9783071280000000, 9811396600000000, 9836744670000000, 9859304430000000,
  9879267220000000, 9896827340000000, 9912178520000000, 9925510880000000, 9937012790000000, 9946865440000000,
  9955244660000000, 9962316750000000, 9968240260000000, 9973163010000000, 9977223280000000, 9980548020000000,
  9983253480000000, 9985444550000000, 9987215400000000, 9988649490000000, 9989819530000000, 9990789290000000,
  9991611840000000, 9992332460000000, 9992986920000000, 9993606210000000, 9994211200000000, 9994819160000000,
  9995442030000000, 9996085760000000, 9996753930000000, 9997445340000000, 9998158810000000, 9998888370000000,
  9999628660000000, 10000370700000000, 10001109800000000, 10001834600000000, 10002538000000000, 10003211500000000,
  10003846900000000, 10004438200000000, 10004977000000000, 10005459800000000, 10005878200000000, 10006229900000000,
  10006511200000000, 10006718600000000, 10006852100000000, 10006908200000000, 10006890300000000, 10006796100000000,
  10006628000000000, 10006389600000000, 10006083300000000, 10005711300000000, 10005281000000000, 10004795800000000,
  10004260500000000, 10003681200000000, 10003063700000000, 10002416400000000, 10001742800000000, 10001052600000000,
  10000351700000000, 9999647740000000, 9998946790000000, 9998257160000000, 9997584820000000, 9996936920000000,
  9996320610000000, 9995741840000000, 9995207190000000, 9994722010000000, 9994291660000000, 9993920920000000,
  9993614550000000, 9993376140000000, 9993209240000000, 9993115070000000, 9993095990000000, 9993152620000000,
  9993285540000000, 9993492960000000, 9993773700000000, 9994125370000000, 9994543790000000, 9995024800000000,
  9995563630000000, 9996154310000000, 9996789690000000, 9997462630000000, 9998165970000000, 9998890760000000,
  9999628660000000, 10000370700000000, 10001109800000000, 10001834600000000, 10002538000000000, 10003211500000000,
  10003846900000000, 10004438200000000, 10004977000000000, 10005459800000000, 10005878200000000, 10006229900000000,
  10006511200000000, 10006718600000000, 10006852100000000, 10006908200000000, 10006890300000000, 10006796100000000,
  10006628000000000, 10006389600000000, 10006083300000000, 10005711300000000, 10005281000000000, 10004795800000000,
  10004260500000000, 10003681200000000, 10003063700000000, 10002416400000000, 10001742800000000, 10001052600000000,
  10000351700000000, 9999647740000000, 9998946790000000, 9998257160000000, 9997584820000000, 9996936920000000,
  9996320610000000, 9995741840000000, 9995207190000000, 9994722010000000, 9994291660000000, 9993920920000000,
  9993614550000000, 9993376140000000, 9993209240000000, 9993115070000000, 9993095990000000, 9993152620000000,
  9993285540000000, 9993492960000000, 9993773700000000, 9994125370000000, 9994543790000000, 9995024800000000,
  9995563630000000, 9996154310000000, 9996789690000000, 9997462630000000, 9998165970000000, 9998890760000000,
  9999628660000000, 10000370700000000, 10001107500000000, 10001827500000000, 10002520100000000, 10003175700000000,
  10003778900000000, 10004316600000000, 10004771900000000, 10005126000000000, 10005358500000000, 10005441900000000,
  10005347700000000, 10005041400000000, 10004482300000000, 10003622800000000, 10002409200000000, 10000778400000000,
  9998658900000000, 9995970130000000, 9992619750000000, 9988504650000000, 9983510380000000, 9977508190000000,
  9970356820000000, 9961898330000000, 9951960440000000, 9940354230000000, 9926872850000000, 9911290410000000,
  9893361330000000, 9872819190000000, 9849377870000000, 9822727440000000, 9792537090000000, 9758453370000000,
  9720100760000000, 9677085280000000, 9628993870000000, 9575397370000000, 9515854720000000, 9449917080000000,
  9377132650000000, 9297053810000000, 9209241870000000, 9113274810000000, 9008758070000000, 8895327450000000,
  8772662280000000, 8640490770000000, 8498598930000000, 8346837760000000, 8185130360000000, 8013477920000000,
  7831965090000000, 7640763520000000, 7440134880000000, 7230432030000000, 7012099620000000, 6785673500000000,
  6551777120000000, 6311118010000000, 6064482330000000, 5812729600000000, 5556784870000000, 5297627450000000,
  5036284920000000, 4773820040000000, 4511321490000000, 4249889850000000, 3990625740000000, 3734618130000000,
  3482930660000000, 3236588540000000, 2996567190000000, 2763778570000000, 2539061310000000, 2323169860000000,
  2116765830000000, 1920409500000000, 1734555660000000, 1559548080000000, 1395618920000000, 1242888270000000,
  1101367250000000, 970961973000000, 851479918000000, 742638558000000, 644074306000000, 555353425000000,
  475983508000000, 405424982000000, 343103148000000, 288419761000000, 240764078000000, 199523065000000,
  164090749000000, 133876354000000, 108311241000000, 86854714900000, 68998485800000, 54269977800000, 42234547400000,
  32496650200000, 24700097300000, 18527497300000, 13699051900000, 9970772080000, 7132276080000, 5004265110000,
  3435786060000, 2301383650000, 1498216010000, 943217892000, 570367956000, 328110509000, 176969679000, 87382786700,
  37767704300, 12825200900, 1950213860]

/-- `mdct_win_5m_96k_hr`, src/tables.c:2251-2462, divided by `10^16`. -/
def win_5m_96k_hr : List Int := [
  689548827, 2315162530, 5044776690, 9307951250, 15634069500, 24673875000, 37218917400, 54222418800, 76821934300,
  106363877000, 144429905000, 192865264000, 253808976000, 329725954000, 423441015000, 538174427000, 677579446000,
  845781324000, 1047417750000, 1287680930000, 1572360340000, 1907886760000, 2301377540000, 2760681670000,
  3294426130000, 3912060640000, 4623904530000, 5441192190000, 6376114910000, 7441868660000, 8652691030000,
  10023904000000, 11571951900000, 13314435500000, 15270141900000, 17459078200000, 19902493800000, 22622898700000,
  25644083500000, 28991131100000, 32690411900000, 36769604800000, 41257664600000, 46184831300000, 51582595300000,
  57483683300000, 63922009400000, 70932647200000, 78551769300000, 86816586600000, 95765283300000, 105436966000000,
  115871523000000, 127109587000000, 139192408000000, 152161736000000, 166059695000000, 180928707000000,
  196811259000000, 213749874000000, 231786855000000, 250964165000000, 271323286000000, 292905010000000,
  315749235000000, 339894816000000, 365379415000000, 392239206000000, 420508720000000, 450220704000000,
  481405817000000, 514092445000000, 548306555000000, 584071539000000, 621407814000000, 660332814000000,
  700860694000000, 743002295000000, 786764771000000, 832151473000000, 879162028000000, 927791744000000,
  978031904000000, 1029869390000000, 1083286780000000, 1138262000000000, 1194768550000000, 1252775040000000,
  1312245880000000, 1373140220000000, 1435413210000000, 1499014650000000, 1563890580000000, 1629981850000000,
  1697225420000000, 1765553800000000, 1834895160000000, 1905174260000000, 1976311800000000, 2048224960000000,
  2120827730000000, 2194031180000000, 2267743650000000, 2341870960000000, 2416317020000000, 2490983750000000,
  2565771940000000, 2640581430000000, 2715311050000000, 2789859470000000, 2864125670000000, 2938009500000000,
  3011410530000000, 3084231320000000, 3156374390000000, 3227745890000000, 3298253720000000, 3367808160000000,
  3436324000000000, 3503717780000000, 3569912310000000, 3634832500000000, 3698408900000000, 3760576250000000,
  3821274340000000, 3880447750000000, 3938047290000000, 3994028570000000, 4048352840000000, 4100987610000000,
  4151904880000000, 4201084080000000, 4248509110000000, 4294170440000000, 4338063600000000, 4380190370000000,
  4420557620000000, 4459177550000000, 4496067760000000, 4531250890000000, 4564754370000000, 4596610370000000,
  4626854960000000, 4655528960000000, 4682676790000000, 4708346430000000, 4732589420000000, 4755460020000000,
  4777015750000000, 4797315900000000, 4816422760000000, 4834400120000000, 4851313530000000, 4867230360000000,
  4882218240000000, 4896346330000000, 4909684360000000, 4922302960000000, 4934271870000000, 4945662320000000,
  4956544040000000, 4966987370000000, 4977061750000000, 4986836310000000, 4996379320000000, 5005758400000000,
  5015039440000000, 5024288300000000, 5033568740000000, 5042944550000000, 5052477720000000, 5062228440000000,
  5072255730000000, 5082617400000000, 5093370080000000, 5104568600000000, 5116266010000000, 5128515360000000,
  5141365530000000, 5154865380000000, 5169063210000000, 5184003110000000, 5199729200000000, 5216283200000000,
  5233706240000000, 5252035260000000, 5271307230000000, 5291557310000000, 5312817100000000, 5335117580000000,
  5358486770000000, 5382950900000000, 5408534410000000, 5435258150000000, 5463142400000000, 5492202640000000,
  5522454980000000, 5553910140000000, 5586577650000000, 5620464680000000, 5655574800000000, 5691909190000000,
  5729467270000000, 5768244270000000, 5808233620000000, 5849425790000000, 5891808270000000, 5935366150000000,
  5980080960000000, 6025933030000000, 6072898510000000, 6120952370000000, 6170065400000000, 6220207810000000,
  6271345620000000, 6323443650000000, 6376464370000000, 6430367830000000, 6485112910000000, 6540654900000000,
  6596949700000000, 6653949020000000, 6711604600000000, 6769867540000000, 6828685400000000, 6888006930000000,
  6947779060000000, 7007947560000000, 7068458200000000, 7129255530000000, 7190284730000000, 7251490350000000,
  7312816980000000, 7374209170000000, 7435611490000000, 7496969700000000, 7558230160000000, 7619338630000000,
  7680242060000000, 7740889790000000, 7801230550000000, 7861214880000000, 7920793890000000, 7979921100000000,
  8038551210000000, 8096638920000000, 8154143100000000, 8211022020000000, 8267236350000000, 8322748540000000,
  8377523420000000, 8431527020000000, 8484727140000000, 8537092800000000, 8588597180000000, 8639212250000000,
  8688914780000000, 8737681510000000, 8785490990000000, 8832325940000000, 8878167270000000, 8923001290000000,
  8966813680000000, 9009593130000000, 9051328900000000, 9092013840000000, 9131640790000000, 9170204400000000,
  9207702280000000, 9244131450000000, 9279492500000000, 9313786030000000, 9347015020000000, 9379183050000000,
  9410296680000000, 9440361260000000, 9469385150000000, 9497378470000000, 9524350170000000, 9550313350000000,
  9575279360000000, 9599262480000000, 9622277620000000, 9644340280000000, 9665467140000000, 9685676100000000,
  9704985020000000, 9723412990000000, 9740980270000000, 9757706520000000, 9773613810000000, 9788722990000000,
  9803056720000000, 9816637040000000, 9829487200000000, 9841629860000000, 9853089450000000, 9863888620000000,
  9874051810000000, 9883602260000000, 9892564420000000, 9900961520000000, 9908817410000000, 9916155930000000,
  9922999140000000, 9929371480000000, 9935294990000000, 9940792320000000, 9945884350000000, 9950593710000000,
  9954941270000000, 9958947300000000, 9962631460000000, 9966013430000000, 9969111680000000, 9971945290000000,
  9974530940000000, 9976885910000000, 9979025720000000, 9980967040000000, 9982724790000000, 9984312060000000,
  9985743170000000, 9987031220000000, 9988188150000000, 9989225860000000, 9990154500000000, 9990984800000000,
  9991726880000000, 9992389080000000, 9992980360000000, 9993507860000000, 9993979930000000, 9994401930000000,
  9994781020000000, 9995122550000000, 9995431300000000, 9995712640000000, 9995970730000000, 9996208550000000,
  9996430870000000, 9996639490000000, 9996837970000000, 9997028710000000, 9997212890000000, 9997392300000000,
  9997569320000000, 9997744560000000, 9997919200000000, 9998093840000000, 9998269080000000, 9998445510000000,
  9998623730000000, 9998803140000000, 9998983740000000, 9999166730000000, 9999350310000000, 9999535080000000,
  9999721050000000, 9999907020000000, 10000093000000000, 10000277800000000, 10000462500000000, 10000646100000000,
  10000827300000000, 10001006100000000, 10001182600000000, 10001355400000000, 10001523500000000, 10001688000000000,
  10001846600000000, 10002000300000000, 10002148200000000, 10002290000000000, 10002424700000000, 10002552300000000,
  10002672700000000, 10002785900000000, 10002890800000000, 10002987400000000, 10003074400000000, 10003154300000000,
  10003224600000000, 10003285400000000, 10003337900000000, 10003380800000000, 10003413000000000, 10003436800000000,
  10003451100000000, 10003455900000000, 10003451100000000, 10003436800000000, 10003414200000000, 10003380800000000,
  10003339100000000, 10003287800000000, 10003228200000000, 10003160200000000, 10003082800000000, 10002998100000000,
  10002905100000000, 10002805000000000, 10002697700000000, 10002583300000000, 10002461700000000, 10002332900000000,
  10002199400000000, 10002059900000000, 10001915700000000, 10001765500000000, 10001610500000000, 10001453200000000,
  10001291000000000, 10001125300000000, 10000957300000000, 10000786800000000, 10000613900000000, 10000439900000000,
  10000264600000000, 10000088200000000, 9999911790000000, 9999735950000000, 9999560710000000, 9999386670000000,
  9999213810000000, 9999043350000000, 9998875260000000, 9998709560000000, 9998547430000000, 9998389480000000,
  9998235110000000, 9998085500000000, 9997940660000000, 9997801180000000, 9997667070000000, 9997539520000000,
  9997417930000000, 9997302890000000, 9997195600000000, 9997094870000000, 9997002480000000, 9996917840000000,
  9996840950000000, 9996773000000000, 9996712800000000, 9996662140000000, 9996620420000000, 9996587630000000,
  9996563790000000, 9996550080000000, 9996545310000000, 9996549490000000, 9996563790000000, 9996587630000000,
  9996621010000000, 9996663330000000, 9996715190000000, 9996776580000000, 9996846910000000, 9996926190000000,
  9997013810000000, 9997110370000000, 9997215270000000, 9997327920000000, 9997448330000000, 9997575880000000,
  9997711180000000, 9997852440000000, 9998000260000000, 9998154040000000, 9998312590000000, 9998476510000000,
  9998645190000000, 9998817440000000, 9998993280000000, 9999172690000000, 9999353890000000, 9999536870000000,
  9999721650000000, 9999907020000000, 10000093000000000, 10000277800000000, 10000462500000000, 10000646100000000,
  10000827300000000, 10001006100000000, 10001182600000000, 10001355400000000, 10001523500000000, 10001688000000000,
  10001846600000000, 10002000300000000, 10002148200000000, 10002290000000000, 10002424700000000, 10002552300000000,
  10002672700000000, 10002785900000000, 10002890800000000, 10002987400000000, 10003074400000000, 10003154300000000,
  10003224600000000, 10003285400000000, 10003337900000000, 10003380800000000, 10003413000000000, 10003436800000000,
  10003451100000000, 10003455900000000, 10003451100000000, 10003436800000000, 10003414200000000, 10003380800000000,
  10003339100000000, 10003287800000000, 10003228200000000, 10003160200000000, 10003082800000000, 10002998100000000,
  10002905100000000, 10002805000000000, 10002697700000000, 10002583300000000, 10002461700000000, 10002332900000000,
  10002199400000000, 10002059900000000, 10001915700000000, 10001765500000000, 10001610500000000, 10001453200000000,
  10001291000000000, 10001125300000000, 10000957300000000, 10000786800000000, 10000613900000000, 10000439900000000,
  10000264600000000, 10000088200000000, 9999911790000000, 9999735950000000, 9999560710000000, 9999386670000000,
  9999213810000000, 9999043350000000, 9998875260000000, 9998709560000000, 9998547430000000, 9998389480000000,
  9998235110000000, 9998085500000000, 9997940660000000, 9997801180000000, 9997667070000000, 9997539520000000,
  9997417930000000, 9997302890000000, 9997195600000000, 9997094870000000, 9997002480000000, 9996917840000000,
  9996840950000000, 9996773000000000, 9996712800000000, 9996662140000000, 9996620420000000, 9996587630000000,
  9996563790000000, 9996550080000000, 9996545310000000, 9996549490000000, 9996563790000000, 9996587630000000,
  9996621010000000, 9996663330000000, 9996715190000000, 9996776580000000, 9996846910000000, 9996926190000000,
  9997013810000000, 9997110370000000, 9997215270000000, 9997327920000000, 9997448330000000, 9997575880000000,
  9997711180000000, 9997852440000000, 9998000260000000, 9998154040000000, 9998312590000000, 9998476510000000,
  9998645190000000, 9998817440000000, 9998993280000000, 9999172690000000, 9999353890000000, 9999536870000000,
  9999721650000000, 9999907020000000, 10000093000000000, 10000277800000000, 10000461300000000, 10000642500000000,
  10000821400000000, 10000996600000000, 10001168300000000, 10001334000000000, 10001492500000000, 10001643900000000,
  10001786900000000, 10001919300000000, 10002039700000000, 10002148200000000, 10002241100000000, 10002316200000000,
  10002373500000000, 10002408000000000, 10002419900000000, 10002403300000000, 10002356800000000, 10002276900000000,
  10002158900000000, 10002000300000000, 10001794100000000, 10001537800000000, 10001224300000000, 10000847600000000,
  10000404100000000, 9999883170000000, 9999280570000000, 9998586770000000, 9997794030000000, 9996892810000000,
  9995874170000000, 9994727370000000, 9993441100000000, 9992004040000000, 9990404250000000, 9988628030000000,
  9986661670000000, 9984490870000000, 9982099530000000, 9979470970000000, 9976589680000000, 9973435400000000,
  9969990850000000, 9966235160000000, 9962147470000000, 9957706330000000, 9952887890000000, 9947668310000000,
  9942022560000000, 9935925010000000, 9929347040000000, 9922260640000000, 9914635420000000, 9906440970000000,
  9897643920000000, 9888211490000000, 9878108500000000, 9867298010000000, 9855743050000000, 9843403700000000,
  9830240010000000, 9816210270000000, 9801270960000000, 9785377380000000, 9768484230000000, 9750543830000000,
  9731507300000000, 9711325760000000, 9689947960000000, 9667322040000000, 9643394350000000, 9618112440000000,
  9591420290000000, 9563263060000000, 9533585310000000, 9502330420000000, 9469441180000000, 9434862140000000,
  9398536680000000, 9360408190000000, 9320421220000000, 9278521540000000, 9234654310000000, 9188767670000000,
  9140810970000000, 9090733530000000, 9038488860000000, 8984031680000000, 8927318450000000, 8868310450000000,
  8806969520000000, 8743262890000000, 8677159550000000, 8608633280000000, 8537662030000000, 8464226720000000,
  8388313650000000, 8309913280000000, 8229022030000000, 8145639300000000, 8059770460000000, 7971427440000000,
  7880626320000000, 7787387970000000, 7691739800000000, 7593715190000000, 7493352890000000, 7390697600000000,
  7285798190000000, 7178711300000000, 7069497700000000, 6958225970000000, 6844967010000000, 6729800700000000,
  6612808700000000, 6494080420000000, 6373709440000000, 6251794100000000, 6128437520000000, 6003746990000000,
  5877833960000000, 5750814680000000, 5622808340000000, 5493936540000000, 5364326240000000, 5234104990000000,
  5103403930000000, 4972355660000000, 4841095210000000, 4709758460000000, 4578482510000000, 4447404740000000,
  4316663150000000, 4186395110000000, 4056738320000000, 3927828070000000, 3799799680000000, 3672786060000000,
  3546918030000000, 3422323760000000, 3299128120000000, 3177453580000000, 3057418470000000, 2939136030000000,
  2822716830000000, 2708265480000000, 2595881520000000, 2485659570000000, 2377688140000000, 2272050080000000,
  2168821990000000, 2068073900000000, 1969869430000000, 1874265370000000, 1781311780000000, 1691051720000000,
  1603521260000000, 1518749450000000, 1436758040000000, 1357562540000000, 1281170700000000, 1207584070000000,
  1136797290000000, 1068798680000000, 1003570180000000, 941087753000000, 881321430000000, 824235976000000,
  769790635000000, 717940032000000, 668634027000000, 621818379000000, 577434972000000, 535422154000000,
  495715141000000, 458246432000000, 422946103000000, 389742292000000, 358561426000000, 329328589000000,
  301968064000000, 276403390000000, 252557844000000, 230354760000000, 209717732000000, 190570969000000,
  172839500000000, 156449396000000, 141328052000000, 127404351000000, 114608845000000, 102873892000000,
  92133833100000, 82325106500000, 73386333000000, 65258406100000, 57884585100000, 51210513300000, 45184274200000,
  39756414500000, 34879939600000, 30510313800000, 26605441200000, 23125645200000, 20033621700000, 17294387800000,
  14875240200000, 12745679100000, 10877344800000, 9243941170000, 7821157920000, 6586586820000, 5519635160000,
  4601439000000, 3814773520000, 3143962820000, 2574789400000, 2094404480000, 1691239450000, 1354917770000,
  1076170160000, 846750627000, 659356156000, 507548866000, 385681342000, 288825358000, 212704090000, 153627971000,
  108434460000, 74431295600, 49343816500, 31265908500, 18614740600, 10089021300, 4630128100, 1379047770]

/-- `mdct_win_7m5_8k`, src/tables.c:2467-2495, divided by `10^11`. -/
def win_7m5_8k : List Int := [
  295060859, 717541132, 1376953740, 2309535560, 3540362300, 5082893040, 6946962930, 9138842780, 11660457500,
  14507354600, 17671117400, 21134295300, 24876861400, 28870110200, 33082387100, 37481454400, 42030801300, 46690491800,
  51418534100, 56171004100, 60902634600, 65567101600, 70121838400, 74524067900, 78736920600, 82722383300, 86451367500,
  89897741500, 93040751800, 95859993700, 98344771900, 100488283000, 102285381000, 103740495000, 104859791000,
  105656184000, 106149371000, 106362578000, 106325973000, 106074505000, 105643590000, 105069500000, 104392435000,
  103647725000, 102872867000, 102106486000, 101400658000, 100727455000, 100172250000, 99730959200, 99398515800,
  99168333500, 99032532500, 98982261300, 99007473400, 99097531400, 99241285100, 99427314900, 99643915700, 99879161600,
  100120985000, 100357357000, 100575984000, 100764515000, 100910687000, 101002476000, 101028203000, 100976919000,
  100838641000, 100605124000, 100269767000, 99828046400, 99277798700, 98618689200, 97763416400, 96744727000,
  95512972500, 94038987700, 92295928000, 90260735000, 87920268900, 85264175000, 82288127200, 78997171500, 75403032800,
  71525574200, 67393691100, 63041471600, 58507885800, 53839851800, 49083375300, 44288582300, 39509102400, 34800434300,
  30219671000, 25822743100, 21664141600, 17792212200, 14248054700, 11065219400, 8269959670, 5883345160, 3920308480,
  2386291070, 1269762230, 535665361]

/-- `mdct_win_7m5_16k`, src/tables.c:2497-2551, divided by `10^11`. -/
def win_7m5_16k : List Int := [
  220824874, 381014420, 591552473, 858361457, 1187597230, 1583353010, 2049186520, 2588835930, 3204158940, 3896167210,
  4667421690, 5518493370, 6450383840, 7464110710, 8560001620, 9738467030, 10999360300, 12341927700, 13765545700,
  15269043700, 16851336300, 18509310500, 20241041900, 22045036500, 23916794100, 25852616800, 27849853900, 29903843200,
  32010486200, 34165862200, 36366003400, 38606269500, 40881527200, 43187104600, 45517698800, 47867659300, 50232481300,
  52606091600, 54983128300, 57357688300, 59724133800, 62077024200, 64409966200, 66717638200, 68995885400, 71237998000,
  73439637200, 75596668800, 77703698100, 79755811400, 81749085600, 83679695000, 85544731000, 87340079800, 89063571900,
  90712877000, 92284878400, 93776332300, 95186020600, 96513060000, 97755654100, 98912620900, 99984691900,
  100970073000, 101868229000, 102681455000, 103408981000, 104051196000, 104610837000, 105088565000, 105486289000,
  105807221000, 106053414000, 106227662000, 106333815000, 106375557000, 106356632000, 106282156000, 106155996000,
  105981709000, 105765876000, 105512006000, 105223985000, 104908779000, 104569860000, 104210831000, 103838099000,
  103455276000, 103067200000, 102679167000, 102295558000, 101920733000, 101587289000, 101221017000, 100884559000,
  100577851000, 100300262000, 100051460000, 99830922900, 99637860100, 99471813200, 99331621600, 99216695700,
  99125860300, 99058110400, 99012311800, 98987371200, 98981870700, 98994680000, 99024317500, 99069556400, 99128854000,
  99200946900, 99284269300, 99377506700, 99479039800, 99587553400, 99701436700, 99819287100, 99939450600,
  100060586000, 100181040000, 100299457000, 100414155000, 100523688000, 100626393000, 100720890000, 100805489000,
  100878802000, 100939182000, 100985296000, 101015529000, 101028602000, 101022988000, 100997541000, 100950846000,
  100881848000, 100789488000, 100672876000, 100530991000, 100363456000, 100169363000, 99948566300, 99700637000,
  99425468700, 99123196700, 98793711500, 98437512500, 97989096300, 97526987900, 97018049800, 96458002700, 95842553400,
  95168401400, 94432023200, 93629062400, 92758050700, 91815341400, 90797652400, 89705005800, 88535136000, 87285792700,
  85957981900, 84550261500, 83061994300, 81494664800, 79848937800, 78126245000, 76329176900, 74459084300, 72519928700,
  70515366800, 68449054500, 66324521000, 64147716200, 61923533400, 59655913300, 57351998900, 55017385100, 52656853800,
  50278115900, 47886088900, 45487789400, 43089812300, 40699396400, 38323403100, 35968009800, 33640810000, 31349641800,
  29101056500, 26901958500, 24758434800, 22678843300, 20667777100, 18731034300, 16873964400, 15101238200, 13417184200,
  11825466200, 10329073400, 8931173600, 7634297870, 6440772910, 5352437150, 4370844530, 3496670990, 2729846290,
  2068958080, 1511251250, 1052287540, 685547314, 402351119]

/-- `mdct_win_7m5_24k`, src/tables.c:2553-2634, divided by `10^11`. -/
def win_7m5_24k : List Int := [
  197084908, 295060859, 412447721, 552688664, 717541132, 908757730, 1128191050, 1376953740, 1656002660, 1966508950,
  2309535560, 2686128940, 3096325600, 3540362300, 4019156100, 4533314030, 5082893040, 5668154480, 6289353040,
  6946962930, 7641063140, 8371600160, 9138842780, 9942940080, 10783472500, 11660457500, 12573650300, 13522681100,
  14507354600, 15527381900, 16582219400, 17671117400, 18792877600, 19947318000, 21134295300, 22352455400, 23600310000,
  24876861400, 26181381100, 27512916100, 28870110200, 30251403400, 31655880500, 33082387100, 34529556700, 35996399200,
  37481454400, 38983181700, 40500101000, 42030801300, 43573951500, 45127781700, 46690491800, 48260904100, 49837546600,
  51418534100, 53002147800, 54586935200, 56171004100, 57752815100, 59330469600, 60902634600, 62467418900, 64022755500,
  65567101600, 67099593500, 68618455900, 70121838400, 71607844900, 73075608400, 74524067900, 75951512200, 77356195500,
  78736920600, 80092313800, 81421138600, 82722383300, 83995237400, 85238610200, 86451367500, 87632407900, 88781428800,
  89897741500, 90980331900, 92028431200, 93040751800, 94016965200, 94956779500, 95859993700, 96726026000, 97554516600,
  98344771900, 99097195700, 99811926900, 100488283000, 101125773000, 101724436000, 102285381000, 102808734000,
  103293706000, 103740495000, 104150164000, 104523236000, 104859791000, 105160340000, 105425505000, 105656184000,
  105853400000, 106017414000, 106149371000, 106249943000, 106320577000, 106362578000, 106376487000, 106363778000,
  106325973000, 106264695000, 106180496000, 106074505000, 105948492000, 105804533000, 105643590000, 105466218000,
  105274047000, 105069500000, 104853894000, 104627898000, 104392435000, 104149540000, 103901003000, 103647725000,
  103390793000, 103131989000, 102872867000, 102614832000, 102358988000, 102106486000, 101856262000, 101655770000,
  101400658000, 101162953000, 100938590000, 100727455000, 100529616000, 100344526000, 100172250000, 100012792000,
  99865753300, 99730959200, 99608357100, 99497656900, 99398515800, 99310753000, 99234130500, 99168333500, 99113007000,
  99067832500, 99032532500, 99006756200, 98990128200, 98982261300, 98982784500, 98991324100, 99007473400, 99030825600,
  99060985200, 99097531400, 99140033000, 99188096600, 99241285100, 99299177900, 99361338100, 99427314900, 99496695800,
  99569037000, 99643915700, 99720857200, 99799427500, 99879161600, 99959606200, 100040410000, 100120985000,
  100200976000, 100279924000, 100357357000, 100432828000, 100505850000, 100575984000, 100642767000, 100705768000,
  100764515000, 100818549000, 100867427000, 100910687000, 100947916000, 100978659000, 101002476000, 101018954000,
  101027669000, 101028203000, 101020174000, 101003208000, 100976919000, 100940939000, 100894931000, 100838641000,
  100771780000, 100694031000, 100605124000, 100504879000, 100393183000, 100269767000, 100134427000, 99987209200,
  99828046400, 99656656900, 99473173700, 99277798700, 99070137400, 98850416500, 98618689200, 98371198900, 98058464300,
  97763416400, 97445503300, 97106291600, 96744727000, 96359392600, 95949139800, 95512972500, 95050132600, 94559281000,
  94038987700, 93488676000, 92908055900, 92295928000, 91650957900, 90972445600, 90260735000, 89515508400, 88735615400,
  87920268900, 87069969800, 86184742400, 85264175000, 84307783300, 83315490500, 82288127200, 81225759700, 80128543900,
  78997171500, 77831817700, 76633771000, 75403032800, 74140799100, 72847750100, 71525574200, 70175173900, 68797563200,
  67393691100, 65965257300, 64513948900, 63041471600, 61548362200, 60036585200, 58507885800, 56964953600, 55408481000,
  53839851800, 52261473800, 50675680500, 49083375300, 47486603300, 45887656600, 44288582300, 42690653900, 41097097300,
  39509102400, 37929132700, 36358741700, 34800434300, 33256320100, 31728748500, 30219671000, 28730940300, 27264399200,
  25822743100, 24407285600, 23020897700, 21664141600, 20339848100, 19048616200, 17792212200, 16572667400, 15390639700,
  14248054700, 13145398000, 12084177800, 11065219400, 10089173400, 9157188510, 8269959670, 7428155290, 6632423820,
  5883345160, 5181406760, 4526983460, 3920308480, 3361441590, 2850233080, 2386291070, 1968942270, 1597205270,
  1269762230, 984937739, 740724463, 535665361, 383226552]

/-- `mdct_win_7m5_32k`, src/tables.c:2636-2743, divided by `10^11`. -/
def win_7m5_32k : List Int := [
  184833037, 256481839, 336762118, 428736617, 533830143, 652679223, 786112587, 934628179, 1099168680, 1280111720,
  1478059110, 1693070430, 1925923070, 2176969370, 2446859830, 2735565430, 3043192300, 3369804640, 3715835770,
  4081481800, 4467080680, 4872629950, 5298206330, 5743824700, 6209685800, 6696097670, 7202983640, 7730391460,
  8278255740, 8846821020, 9436075660, 10046027200, 10676382400, 11327367900, 11998642000, 12690352100, 13402085300,
  14133955700, 14885721100, 15657368500, 16448462200, 17258907700, 18087909000, 18935432000, 19801224400, 20685414100,
  21587531900, 22506867200, 23442740700, 24394831400, 25362799300, 26346406100, 27345049400, 28358218900, 29385346900,
  30425737300, 31479091400, 32544912300, 33622741000, 34711876000, 35812017700, 36922466300, 38042779300, 39172002300,
  40309702200, 41455195500, 42608171900, 43767631800, 44933019600, 46103485500, 47278604300, 48457677700, 49640170700,
  50825245800, 52012207800, 53200207700, 54388809000, 55577160100, 56764573900, 57950278600, 59133503500, 60313836700,
  61490417200, 62662394100, 63828883400, 64989337500, 66143236000, 67290251400, 68429375000, 69560046000, 70681178400,
  71792342500, 72893138600, 73983277300, 75061898200, 76128405300, 77181891900, 78222099200, 79248133000, 80259944800,
  81256523000, 82237712900, 83203051800, 84152320800, 85084831300, 86000241200, 86897988100, 87777834700, 88639590400,
  89482942100, 90307762600, 91113265200, 91899358500, 92665293700, 93411142000, 94136434400, 94841296700, 95525563000,
  96189201300, 96831636300, 97453015600, 98052833800, 98631392800, 99188604900, 99724634500, 100239190000,
  100731946000, 101202707000, 101651654000, 102079430000, 102486082000, 102871471000, 103235170000, 103577375000,
  103898432000, 104198786000, 104478564000, 104737818000, 104976743000, 105195405000, 105394290000, 105573463000,
  105734177000, 105875726000, 105998674000, 106103672000, 106190651000, 106260369000, 106313289000, 106350237000,
  106370981000, 106376322000, 106366765000, 106343012000, 106305656000, 106255421000, 106192235000, 106116702000,
  106029469000, 105931469000, 105823465000, 105705891000, 105578948000, 105442979000, 105298793000, 105147505000,
  104989930000, 104826213000, 104656691000, 104481699000, 104302125000, 104118768000, 103932339000, 103743168000,
  103551757000, 103358511000, 103164371000, 102969955000, 102775944000, 102582719000, 102390791000, 102200805000,
  102013910000, 101826310000, 101687901000, 101492195000, 101309662000, 101134205000, 100965912000, 100805036000,
  100651754000, 100505799000, 100366956000, 100235327000, 100110981000, 99993752300, 99883452400, 99780060600,
  99683575600, 99593888100, 99510845900, 99434341100, 99364292100, 99300583200, 99243098400, 99191749300, 99146389800,
  99106821400, 99072921800, 99044622500, 99021781900, 99004196300, 98991708500, 98984197500, 98981504800, 98983432900,
  98989821100, 99000540300, 99015418900, 99034242700, 99056845900, 99083095300, 99112803800, 99145756600, 99181788100,
  99220755900, 99262475700, 99306735800, 99353339800, 99402141000, 99452968500, 99505596400, 99559835100, 99615558000,
  99672562700, 99730609200, 99789521400, 99849144100, 99909289000, 99969706300, 100030303000, 100090793000,
  100151084000, 100210923000, 100270118000, 100328513000, 100385926000, 100442111000, 100496860000, 100550040000,
  100601455000, 100650869000, 100698104000, 100743004000, 100785364000, 100824962000, 100861604000, 100895138000,
  100925390000, 100952134000, 100975175000, 100994371000, 101009550000, 101020488000, 101027007000, 101028975000,
  101026227000, 101018562000, 101005820000, 100987882000, 100964593000, 100935753000, 100901228000, 100860959000,
  100814837000, 100762674000, 100704343000, 100639775000, 100568877000, 100491559000, 100407768000, 100317429000,
  100220424000, 100116684000, 100006248000, 99889142200, 99765225200, 99634385600, 99496746200, 99352466300,
  99201392700, 99043328300, 98878514700, 98707268100, 98529744300, 98340116100, 98094941800, 97878272900, 97646823800,
  97404285000, 97149884800, 96882996800, 96603097400, 96309510400, 96001819800, 95679573800, 95342626700, 94990348200,
  94622211500, 94237582000, 93836170200, 93417779800, 92982312400, 92529232000, 92058012000, 91567979300, 91059060400,
  90531503000, 89985275600, 89419949700, 88835015200, 88230163100, 87605487400, 86961238500, 86297279900, 85613519800,
  84909817900, 84185702400, 83441405500, 82677461700, 81893924400, 81090489100, 80267531800, 79425375100, 78564166200,
  77683860900, 76785319300, 75868518100, 74933065800, 73980917100, 73010994400, 72024778100, 71022416100, 70004432600,
  68971189000, 67923115400, 66860817900, 65785099700, 64696571800, 63595961700, 62484033600, 61360350300, 60226509100,
  59082908300, 57930940800, 56771112400, 55603741600, 54429366400, 53248976800, 52063608400, 50874327300, 49681116600,
  48484988100, 47286810700, 46087591800, 44888108100, 43689103900, 42491202200, 41296060300, 40103589600, 38915786700,
  37732219900, 36554376700, 35383235600, 34219611500, 33064482000, 31918755900, 30783330900, 29658818200, 28546371700,
  27446240900, 26360958400, 25288310100, 24232348900, 23192574600, 22169083700, 21163805800, 20176692000, 19208223600,
  18258916000, 17330599700, 16422920000, 15536265400, 14671707900, 13829939100, 13010507800, 12214531000, 11442345800,
  10694107600, 9970258930, 9271242830, 8597374270, 7948933110, 7326165790, 6729341020, 6158740810, 5614580030,
  5097007470, 4606170470, 4142201170, 3705141890, 3294946660, 2911533270, 2554764010, 2224377110, 1920006590,
  1641222050, 1387476110, 1158063530, 952213664, 769137380, 607207833, 462581217, 360685164]

/-- `mdct_win_7m5_48k`, src/tables.c:2745-2905, divided by `10^11`. -/
def win_7m5_48k : List Int := [
  172152668, 220824874, 268901752, 322613342, 381014420, 445371932, 515369240, 591552473, 673869158, 762861841,
  858361457, 960938437, 1070607530, 1187597230, 1311901300, 1443901080, 1583353010, 1730630810, 1885847110,
  2049186520, 2220614760, 2400571660, 2588835930, 2785523260, 2990591450, 3204158940, 3426100130, 3656809730,
  3896167210, 4144358240, 4401407960, 4667421690, 4942146250, 5225884890, 5518493370, 5820051430, 6130598450,
  6450383840, 6779139230, 7117078330, 7464110710, 7820280530, 8185495210, 8560001620, 8943576170, 9336425890,
  9738467030, 10149671800, 10569876000, 10999360300, 11437828700, 11885350800, 12341927700, 12807599700, 13282058100,
  13765545700, 14257864800, 14759052200, 15269043700, 15787885300, 16315252900, 16851336300, 17395796900, 17948473700,
  18509310500, 19078483500, 19655649700, 20241041900, 20834543300, 21435982500, 22045036500, 22661729600, 23285627900,
  23916794100, 24555064200, 25200395100, 25852616800, 26511840800, 27177591100, 27849853900, 28528460600, 29213245900,
  29903843200, 30600425600, 31302652900, 32010486200, 32723732400, 33442321000, 34165862200, 34894497600, 35627925200,
  36366003400, 37108514600, 37855432700, 38606269500, 39361055400, 40119522500, 40881527200, 41646846000, 42415541100,
  43187104600, 43961474400, 44738401900, 45517698800, 46299013800, 47082461900, 47867659300, 48654543300, 49442871400,
  50232481300, 51022947100, 51814292700, 52606091600, 53398281800, 54190681700, 54983128300, 55775123400, 56566763600,
  57357688300, 58147666600, 58936466100, 59724133800, 60510201300, 61294617000, 62077024200, 62857209400, 63634852600,
  64409966200, 65182097300, 65951382200, 66717638200, 67480679500, 68240071100, 68995885400, 69747572200, 70495014500,
  71237998000, 71976543400, 72710383300, 73439637200, 74163856100, 74882963900, 75596668800, 76304925900, 77007227300,
  77703698100, 78394110800, 79078125700, 79755811400, 80427138100, 81091490100, 81749085600, 82399709400, 83043278500,
  83679695000, 84308929800, 84930584700, 85544731000, 86151103700, 86749628100, 87340079800, 87922751800, 88497243800,
  89063571900, 89621717300, 90171641400, 90712877000, 91245657800, 91769726100, 92284878400, 92790991700, 93288259600,
  93776332300, 94255335600, 94725242800, 95186020600, 95637606000, 96080060200, 96513060000, 96936668900, 97350881200,
  97755654100, 98150722600, 98536458000, 98912620900, 99279420100, 99636754500, 99984691900, 100322812000,
  100651341000, 100970073000, 101279029000, 101578293000, 101868229000, 102148657000, 102419772000, 102681455000,
  102933598000, 103176043000, 103408981000, 103632326000, 103846361000, 104051196000, 104246831000, 104433331000,
  104610837000, 104779018000, 104938334000, 105088565000, 105229923000, 105362522000, 105486289000, 105601521000,
  105708746000, 105807221000, 105897524000, 105979447000, 106053414000, 106119412000, 106177366000, 106227662000,
  106270324000, 106305569000, 106333815000, 106354800000, 106368607000, 106375557000, 106375743000, 106369358000,
  106356632000, 106337707000, 106312782000, 106282156000, 106245782000, 106203634000, 106155996000, 106102951000,
  106044797000, 105981709000, 105914163000, 105842136000, 105765876000, 105685377000, 105600761000, 105512006000,
  105419505000, 105323346000, 105223985000, 105121668000, 105016637000, 104908779000, 104798366000, 104685334000,
  104569860000, 104452056000, 104332348000, 104210831000, 104087907000, 103963603000, 103838099000, 103711403000,
  103583813000, 103455276000, 103326200000, 103196750000, 103067200000, 102937564000, 102808244000, 102679167000,
  102550635000, 102422655000, 102295558000, 102169299000, 102044475000, 101920733000, 101799992000, 101716022000,
  101587289000, 101461783000, 101339738000, 101221017000, 101105652000, 100993444000, 100884559000, 100778956000,
  100676790000, 100577851000, 100482173000, 100389592000, 100300262000, 100214091000, 100131213000, 100051460000,
  99974898800, 99901348600, 99830922900, 99763493400, 99699188500, 99637860100, 99579598200, 99524221700, 99471813200,
  99422212200, 99375531300, 99331621600, 99290580900, 99252242200, 99216695700, 99183770400, 99153550800, 99125860300,
  99100787800, 99078172300, 99058110400, 99040433600, 99025226700, 99012311800, 99001772600, 98993432500, 98987371200,
  98983411000, 98981635900, 98981870700, 98984199800, 98988443800, 98994680000, 99002728700, 99012668000, 99024317500,
  99037759400, 99052813400, 99069556400, 99087804300, 99107630200, 99128854000, 99151560200, 99175566600, 99200946900,
  99227515500, 99255348600, 99284269300, 99314353300, 99345408000, 99377506700, 99410468900, 99444374200, 99479039800,
  99514536100, 99550680000, 99587553400, 99624968100, 99662991900, 99701436700, 99740379900, 99779640400, 99819287100,
  99859128600, 99899243600, 99939450600, 99979824700, 100020179000, 100060586000, 100100858000, 100141070000,
  100181040000, 100220846000, 100260296000, 100299457000, 100338148000, 100376444000, 100414155000, 100451348000,
  100487832000, 100523688000, 100558730000, 100593027000, 100626393000, 100658905000, 100690380000, 100720890000,
  100750238000, 100778498000, 100805489000, 100831287000, 100855700000, 100878802000, 100900405000, 100920593000,
  100939182000, 100956244000, 100971590000, 100985296000, 100997177000, 101007317000, 101015529000, 101021893000,
  101026225000, 101028602000, 101028842000, 101027030000, 101022988000, 101016802000, 101008292000, 100997541000,
  100984369000, 100968863000, 100950846000, 100930404000, 100907371000, 100881848000, 100853675000, 100822947000,
  100789488000, 100753391000, 100714488000, 100672876000, 100628393000, 100581146000, 100530991000, 100478053000,
  100422177000, 100363456000, 100301719000, 100237067000, 100169363000, 100098749000, 100025108000, 99948566300,
  99868959200, 99786366600, 99700637000, 99611919900, 99520140400, 99425468700, 99327759500, 99227065100, 99123196700,
  99016328600, 98906439400, 98793711500, 98677973600, 98559277300, 98437512500, 98312928800, 98134846300, 97989096300,
  97840045900, 97686043500, 97526987900, 97362735300, 97193134100, 97018049800, 96837265200, 96650695200, 96458002700,
  96259231800, 96054098600, 95842553400, 95624439300, 95399841600, 95168401400, 94930118500, 94684688400, 94432023200,
  94171840400, 93904258000, 93629062400, 93346405000, 93056085400, 92758050700, 92451959200, 92137847100, 91815341400,
  91484469600, 91145165200, 90797652400, 90441754500, 90077630800, 89705005800, 89323839800, 88933868100, 88535136000,
  88127402300, 87710963800, 87285792700, 86851950500, 86409279600, 85957981900, 85497600700, 85028522000, 84550261500,
  84063047000, 83566792500, 83061994300, 82548200700, 82025890900, 81494664800, 80954669600, 80405997800, 79848937800,
  79283141700, 78709066800, 78126245000, 77535394700, 76936361300, 76329176900, 75713901600, 75090171100, 74459084300,
  73820513600, 73173807500, 72519928700, 71858822500, 71190568700, 70515366800, 69833263400, 69144410100, 68449054500,
  67747011900, 67038837500, 66324521000, 65604578000, 64878862700, 64147716200, 63411432300, 62670200000, 61923533400,
  61172059600, 60416161200, 59655913300, 58891440100, 58123478300, 57351998900, 56577061600, 55798806700, 55017385100,
  54233019400, 53446079800, 52656853800, 51865632400, 51072881300, 50278115900, 49481949100, 48684513900, 47886088900,
  47086992800, 46287514400, 45487789400, 44688251200, 43888932500, 43089812300, 42291832200, 41495087800, 40699396400,
  39905264800, 39113461400, 38323403100, 37535465300, 36750206000, 35968009800, 35188731200, 34413016600, 33640810000,
  32872896600, 32109050500, 31349641800, 30595156500, 29845431900, 29101056500, 28362110900, 27628541500, 26901958500,
  26181244500, 25465923200, 24758434800, 24057869400, 23364700900, 22678843300, 22000199200, 21330132500, 20667777100,
  20014040900, 19368363000, 18731034300, 18102738400, 17483947600, 16873964400, 16273727300, 15682527700, 15101238200,
  14529823000, 13968746900, 13417184200, 12876254400, 12345556200, 11825466200, 11315967700, 10817143900, 10329073400,
  9852029780, 9386000230, 8931173600, 8487521030, 8055237370, 7634297870, 7224892460, 6826991200, 6440772910,
  6066200030, 5703437110, 5352437150, 5013346900, 4686107900, 4370844530, 4067483650, 3776122690, 3496670990,
  3229192750, 2973576690, 2729846290, 2497871860, 2277625420, 2068958080, 1871781690, 1685934180, 1511251250,
  1347570940, 1194627090, 1052287540, 920130941, 798124316, 685547314, 582657334, 487838525, 402351119, 315418663]

/-- `mdct_win_10m_8k`, src/tables.c:2907-2941, divided by `10^12`. -/
def win_10m_8k : List Int := [
  -707854671, -2098197730, -4525198080, -8233976330, -13377131000, -19997215600, -28009094600, -37215020800,
  -47317682600, -57946548300, -68676067500, -79046474400, -88597054700, -96883036200, -103496124000, -108076646000,
  -110324226000, -109980985000, -106817214000, -100619042000, -91164525100, -78206174800, -61466881200, -40633628600,
  -15363295200, 14701550700, 49897365100, 90503692600, 136691102000, 188468639000, 245645680000, 307778908000,
  374164237000, 443811480000, 515473546000, 587666172000, 658761977000, 727057670000, 790875299000, 848664336000,
  899132024000, 941334815000, 974763483000, 999411473000, 1015760370000, 1024736160000, 1027634290000, 1025991490000,
  1021427210000, 1015439860000, 1009366930000, 1003508160000, 998889821000, 995313390000, 992594392000, 990577196000,
  989137162000, 988179075000, 987624927000, 987405628000, 987452485000, 987695113000, 988064062000, 988492687000,
  988923003000, 989307497000, 989614633000, 989831927000, 989969310000, 990060335000, 990157502000, 990325529000,
  990630379000, 991129889000, 991866549000, 992861973000, 994115607000, 995603378000, 997279311000, 999078484000,
  1000922370000, 1002728110000, 1004416040000, 1005919220000, 1007189350000, 1008200150000, 1008949490000,
  1009458240000, 1009768980000, 1009940340000, 1010039450000, 1010132320000, 1010272520000, 1010494350000,
  1010808070000, 1011201070000, 1011641270000, 1012080130000, 1012458180000, 1012706960000, 1012755010000,
  1012530130000, 1011962330000, 1010982140000, 1009512440000, 1007460860000, 1004708680000, 1001111410000,
  996504102000, 990720000000, 982376587000, 970882175000, 954673298000, 932155386000, 901800368000, 862398408000,
  813281737000, 754455197000, 686658072000, 611348804000, 530618165000, 447130985000, 363911468000, 284164703000,
  211020945000, 147228797000, 94826653500, 54824366100, 27014614100, 9996743590]

/-- `mdct_win_10m_16k`, src/tables.c:2943-3009, divided by `10^12`. -/
def win_10m_16k : List Int := [
  -461989875, -974716672, -1664473100, -2597106920, -3806285160, -5324608720, -7175885280, -9382480860, -11952703000,
  -14895281600, -18206664000, -21875709300, -25884719400, -30208627400, -34815977900, -39670679900, -44726980500,
  -49942258600, -55263347900, -60637172400, -66009615200, -71319662700, -76511782300, -81529640100, -86311375400,
  -90804112900, -94953777600, -98707365100, -102020268000, -104843883000, -107138231000, -108869014000, -109996966000,
  -110489847000, -110322584000, -109462175000, -107883429000, -105561251000, -102465016000, -98570145700,
  -93846849200, -88263099900, -81787927200, -74387856000, -66021898000, -56656556400, -46244568900, -34745857800,
  -22115816100, -8310425700, 6717697640, 23006420600, 40601064600, 59532390900, 79833541900, 101523314000,
  124617139000, 149115252000, 175006740000, 202269985000, 230865538000, 260736512000, 291814469000, 324009570000,
  357217518000, 391314689000, 426157164000, 461592545000, 497447159000, 533532682000, 569654673000, 605608382000,
  641183084000, 676165350000, 710340055000, 743494372000, 775428189000, 805943723000, 834858937000, 862010834000,
  887259971000, 910486312000, 931596250000, 950522086000, 967236671000, 981739750000, 994055718000, 1004247510000,
  1012407430000, 1018650990000, 1023118840000, 1025972450000, 1027397520000, 1027585830000, 1026738670000,
  1025061780000, 1022756510000, 1020009140000, 1016996500000, 1013915950000, 1011044870000, 1007773860000,
  1004848750000, 1002245010000, 999939317000, 997905542000, 996120338000, 994559753000, 993203161000, 992029727000,
  991023065000, 990166895000, 989448837000, 988855636000, 988377852000, 988005163000, 987729546000, 987541274000,
  987432981000, 987394992000, 987419705000, 987497321000, 987620124000, 987778192000, 987963798000, 988167801000,
  988383520000, 988602222000, 988818277000, 989024798000, 989217866000, 989392368000, 989546334000, 989677201000,
  989785920000, 989872536000, 989941079000, 989994556000, 990039402000, 990081472000, 990129379000, 990190227000,
  990273445000, 990386228000, 990537983000, 990734883000, 990984259000, 991290512000, 991658694000, 992090615000,
  992588721000, 993151653000, 993779087000, 994466818000, 995211663000, 996006862000, 996846133000, 997720337000,
  998621352000, 999538258000, 1000461960000, 1001380550000, 1002284870000, 1003163850000, 1004009150000,
  1004811380000, 1005563970000, 1006259860000, 1006895570000, 1007466620000, 1007972440000, 1008411470000,
  1008786010000, 1009097760000, 1009351760000, 1009552400000, 1009707090000, 1009822090000, 1009906960000,
  1009969020000, 1010017890000, 1010060810000, 1010106560000, 1010161130000, 1010231080000, 1010319480000,
  1010430470000, 1010564100000, 1010721360000, 1010899660000, 1011096990000, 1011308170000, 1011529190000,
  1011753010000, 1011973880000, 1012182840000, 1012373030000, 1012535060000, 1012660980000, 1012740580000,
  1012765920000, 1012726960000, 1012615900000, 1012422890000, 1012140460000, 1011758810000, 1011269960000,
  1010663680000, 1009930750000, 1009058250000, 1008034310000, 1006843350000, 1005470010000, 1003894770000,
  1002098850000, 1000060690000, 997760020000, 995174643000, 992286108000, 989075787000, 984736245000, 979861353000,
  974137862000, 967333198000, 959253976000, 949698408000, 938463416000, 925356797000, 910198679000, 892833832000,
  873143784000, 851042044000, 826483991000, 799468149000, 770043128000, 738302860000, 704381434000, 668461648000,
  630775533000, 591579959000, 551170316000, 509891542000, 468101711000, 426177297000, 384517234000, 343522867000,
  303600465000, 265143468000, 228528397000, 194102191000, 162173542000, 133001524000, 106784043000, 83650572400,
  63651881100, 46765384100, 32880727500, 21830575600, 13363814300, 6758124890]

/-- `mdct_win_10m_24k`, src/tables.c:3011-3110, divided by `10^12`. -/
def win_10m_24k : List Int := [
  -361349642, -707854671, -1074443640, -1533478540, -2098197730, -2778420870, -3584129920, -4525198080, -5609327240,
  -6843234540, -8233976330, -9785314760, -11498803000, -13377131000, -15421816800, -17629799100, -19997215600,
  -22520805600, -25194063000, -28009094600, -30957650900, -34029962700, -37215020800, -40500532500, -43872192200,
  -47317682600, -50823253400, -54371666400, -57946548300, -61534262000, -65117081600, -68676067500, -72194478100,
  -75656959800, -79046474400, -82344425600, -85533245800, -88597054700, -91520911000, -94288474500, -96883036200,
  -99291232600, -101500847000, -103496124000, -105263700000, -106793998000, -108076646000, -109099730000,
  -109852449000, -110324226000, -110508462000, -110397741000, -109980985000, -109249277000, -108197423000,
  -106817214000, -105099580000, -103036011000, -100619042000, -97841200200, -94693042200, -91164525100, -87246445300,
  -82930439100, -78206174800, -73061424300, -67484681800, -61466881200, -54994972600, -48054444200, -40633628600,
  -32720455900, -24301225800, -15363295200, -5891434270, 4126595860, 14701550700, 25847381900, 37576527700,
  49897365100, 62820340300, 76353977300, 90503692600, 105274712000, 120670347000, 136691102000, 153334389000,
  170595471000, 188468639000, 206944996000, 226009300000, 245645680000, 265834602000, 286554381000, 307778908000,
  329476944000, 351617148000, 374164237000, 397073959000, 420304305000, 443811480000, 467544229000, 491449863000,
  515473546000, 539555764000, 563639982000, 587666172000, 611569531000, 635289059000, 658761977000, 681923097000,
  704709282000, 727057670000, 748906896000, 770199019000, 790875299000, 810878869000, 830157914000, 848664336000,
  866354816000, 883189685000, 899132024000, 914154056000, 928228255000, 941334815000, 953461939000, 964604825000,
  974763483000, 983943539000, 992152910000, 999411473000, 1005746080000, 1011183970000, 1015760370000, 1019515070000,
  1022490940000, 1024736160000, 1026304100000, 1027250980000, 1027634290000, 1027511060000, 1026942800000,
  1025991490000, 1024716150000, 1023175980000, 1021427210000, 1019521570000, 1017510120000, 1015439860000,
  1013460920000, 1011654900000, 1009366930000, 1007263180000, 1005313190000, 1003508160000, 1001840790000,
  1000303930000, 998889821000, 997591528000, 996401528000, 995313390000, 994320108000, 993415896000, 992594392000,
  991851028000, 991179799000, 990577196000, 990038105000, 989559439000, 989137162000, 988768437000, 988449792000,
  988179075000, 987952836000, 987769137000, 987624927000, 987517995000, 987445813000, 987405628000, 987395112000,
  987411537000, 987452485000, 987514989000, 987596889000, 987695113000, 987807582000, 987931200000, 988064062000,
  988203257000, 988347108000, 988492687000, 988638659000, 988782558000, 988923003000, 989058172000, 989186767000,
  989307497000, 989419640000, 989522076000, 989614633000, 989697035000, 989769260000, 989831927000, 989885257000,
  989930764000, 989969310000, 990002569000, 990032156000, 990060335000, 990088981000, 990120659000, 990157502000,
  990202395000, 990257541000, 990325529000, 990408791000, 990509649000, 990630379000, 990772711000, 990938744000,
  991129889000, 991347632000, 991592856000, 991866549000, 992169132000, 992501085000, 992861973000, 993251918000,
  993670021000, 994115607000, 994587315000, 995083740000, 995603378000, 996143992000, 996703453000, 997279311000,
  997869086000, 998469709000, 999078484000, 999691901000, 1000308190000, 1000922370000, 1001532640000, 1002135460000,
  1002728110000, 1003307450000, 1003870930000, 1004416040000, 1004940550000, 1005442140000, 1005919220000,
  1006370300000, 1006793930000, 1007189350000, 1007555570000, 1007892670000, 1008200150000, 1008478420000,
  1008727880000, 1008949490000, 1009144110000, 1009313220000, 1009458240000, 1009581280000, 1009684090000,
  1009768980000, 1009838310000, 1009894550000, 1009940340000, 1009977920000, 1010010230000, 1010039450000,
  1010068200000, 1010098390000, 1010132320000, 1010171660000, 1010218100000, 1010272520000, 1010336490000,
  1010410220000, 1010494350000, 1010588870000, 1010693500000, 1010808070000, 1010931440000, 1011062880000,
  1011201070000, 1011344700000, 1011491900000, 1011641270000, 1011790280000, 1011937570000, 1012080130000,
  1012216240000, 1012342910000, 1012458180000, 1012558880000, 1012642860000, 1012706960000, 1012748950000,
  1012765800000, 1012755010000, 1012713800000, 1012639780000, 1012530130000, 1012382310000, 1012194070000,
  1011962330000, 1011685170000, 1011359140000, 1010982140000, 1010550720000, 1010062130000, 1009512440000,
  1008898690000, 1008215920000, 1007460860000, 1006627740000, 1005712340000, 1004708680000, 1003611470000,
  1002414290000, 1001111410000, 999696165000, 998162595000, 996504102000, 994714888000, 992789191000, 990720000000,
  988479371000, 985534766000, 982376587000, 978974733000, 975162381000, 970882175000, 966080552000, 960697640000,
  954673298000, 947947935000, 940460905000, 932155386000, 922977548000, 912874535000, 901800368000, 889716328000,
  876590897000, 862398408000, 847120080000, 830747973000, 813281737000, 794729145000, 775110884000, 754455197000,
  732796355000, 710179084000, 686658072000, 662296243000, 637168412000, 611348804000, 584920660000, 557974743000,
  530618165000, 502952396000, 475086883000, 447130985000, 419204992000, 391425291000, 363911468000, 336783777000,
  310162784000, 284164703000, 258903371000, 234488060000, 211020945000, 188599764000, 167310081000, 147228797000,
  128422307000, 110942255000, 94826653500, 80099143700, 66767658500, 54824366100, 44245888500, 34993610000,
  27014614100, 20243701800, 14607967600, 9996743590, 5305235100]

/-- `mdct_win_10m_32k`, src/tables.c:3112-3243, divided by `10^12`. -/
def win_10m_32k : List Int := [
  -302115349, -586773749, -836650400, -1126635360, -1470492940, -1873473390, -2339292360, -2872008070, -3476256390,
  -4155963820, -4914563790, -5755172500, -6680623380, -7693816920, -8796760750, -9990503070, -11275741200,
  -12653341500, -14124389900, -15688896200, -17345120900, -19090973700, -20925467100, -22846847900, -24852077200,
  -26937467000, -29099524900, -31335046300, -33639607300, -36008209700, -38436017400, -40917460300, -43446548900,
  -46017867200, -48625985100, -51264742000, -53926447500, -56603843100, -59291167500, -61982682000, -64670255500,
  -67345422200, -70000990200, -72630570100, -75227849600, -77785259400, -80294802500, -82749245400, -85141254600,
  -87463791200, -89710693400, -91875640800, -93951769800, -95931377400, -97808432600, -99578513000, -101236117000,
  -102774104000, -104186122000, -105468025000, -106616088000, -107625538000, -108491230000, -109208742000,
  -109773615000, -110180886000, -110427188000, -110510836000, -110428147000, -110173922000, -109743736000,
  -109135313000, -108346734000, -107373994000, -106213016000, -104860615000, -103313240000, -101567316000,
  -99620055100, -97468032300, -95107236200, -92533033800, -89741252200, -86728776900, -83492138400, -80026399000,
  -76326795400, -72388061600, -68205768000, -63776114300, -59093860000, -54153163200, -48948127200, -43473471100,
  -37724613000, -31695876100, -25381798300, -18776891000, -11874613800, -4669099250, 2844096750, 10669761200,
  18813559500, 27281560100, 36078104700, 45207027600, 54672388000, 64478660500, 74628622000, 85124905700, 95969839900,
  107165078000, 118711585000, 130610107000, 142859645000, 155458473000, 168404161000, 181694789000, 195327388000,
  209296321000, 223594564000, 238216022000, 253152972000, 268396157000, 283936139000, 299762426000, 315861908000,
  332221055000, 348826468000, 365664038000, 382715297000, 399961186000, 417384327000, 434966962000, 452687640000,
  470524201000, 488453925000, 506454555000, 524500675000, 542567437000, 560631204000, 578667265000, 596647704000,
  614545890000, 632336194000, 649992632000, 667487403000, 684793267000, 701883546000, 718732254000, 735312821000,
  751600199000, 767569925000, 783197457000, 798458386000, 813329535000, 827789227000, 841817856000, 855396130000,
  868506898000, 881133444000, 893259678000, 904874884000, 915965761000, 926521530000, 936533999000, 945997703000,
  954908841000, 963265812000, 971068890000, 978320416000, 985022676000, 991179208000, 996798994000, 1001894020000,
  1006474340000, 1010552060000, 1014142540000, 1017262590000, 1019928840000, 1022159870000, 1023976320000,
  1025400730000, 1026455340000, 1027164510000, 1027552730000, 1027644460000, 1027463250000, 1027035900000,
  1026389070000, 1025548200000, 1024537130000, 1023380800000, 1022103700000, 1020728360000, 1019275330000,
  1017765180000, 1016217360000, 1014665310000, 1013249070000, 1011948010000, 1010189090000, 1008557960000,
  1007011290000, 1005548760000, 1004168420000, 1002867270000, 1001641770000, 1000489070000, 999406080000,
  998389887000, 997437085000, 996544484000, 995709855000, 994930241000, 994202405000, 993524160000, 992893043000,
  992306810000, 991763378000, 991259764000, 990795450000, 990367789000, 989975161000, 989616034000, 989289016000,
  988992851000, 988726033000, 988486872000, 988275104000, 988089217000, 987927711000, 987789826000, 987674344000,
  987580750000, 987507202000, 987452945000, 987416974000, 987398469000, 987395830000, 987408003000, 987434340000,
  987473624000, 987524314000, 987585620000, 987656379000, 987735892000, 987822558000, 987915097000, 988013273000,
  988115695000, 988221131000, 988328903000, 988437831000, 988547679000, 988656841000, 988764587000, 988870854000,
  988974432000, 989074727000, 989171004000, 989263102000, 989350722000, 989433065000, 989509692000, 989581081000,
  989646747000, 989706737000, 989760693000, 989809448000, 989853013000, 989891471000, 989925419000, 989955420000,
  989982449000, 990006512000, 990028481000, 990049748000, 990070956000, 990092836000, 990116392000, 990142748000,
  990173428000, 990208733000, 990249864000, 990298369000, 990354850000, 990420508000, 990495930000, 990582515000,
  990681257000, 990792209000, 990916546000, 991055074000, 991208461000, 991376861000, 991560583000, 991760421000,
  991976718000, 992209110000, 992457914000, 992723123000, 993004954000, 993302728000, 993616108000, 993945371000,
  994289515000, 994648168000, 995020303000, 995405817000, 995803871000, 996213027000, 996632469000, 997061531000,
  997499058000, 997943743000, 998394057000, 998849312000, 999308343000, 999768922000, 1000231130000, 1000692140000,
  1001152010000, 1001608530000, 1002060490000, 1002507210000, 1002947130000, 1003378910000, 1003801370000,
  1004213810000, 1004615390000, 1005004620000, 1005380630000, 1005743280000, 1006091510000, 1006424910000,
  1006742430000, 1007044320000, 1007330220000, 1007599400000, 1007852060000, 1008088180000, 1008308030000,
  1008511250000, 1008698140000, 1008869520000, 1009025660000, 1009166720000, 1009293360000, 1009406400000,
  1009507020000, 1009595260000, 1009672150000, 1009739080000, 1009796680000, 1009846140000, 1009888080000,
  1009924090000, 1009955380000, 1009982270000, 1010006300000, 1010028620000, 1010050250000, 1010071950000,
  1010094370000, 1010118920000, 1010146500000, 1010177110000, 1010211760000, 1010251000000, 1010295470000,
  1010345230000, 1010400320000, 1010461560000, 1010528620000, 1010601520000, 1010679790000, 1010763910000,
  1010853430000, 1010947550000, 1011045950000, 1011148490000, 1011254400000, 1011363080000, 1011473300000,
  1011585000000, 1011697420000, 1011808920000, 1011919260000, 1012027240000, 1012132150000, 1012232730000,
  1012327560000, 1012416380000, 1012497890000, 1012570430000, 1012633300000, 1012685280000, 1012725560000,
  1012752580000, 1012765060000, 1012762360000, 1012743380000, 1012706480000, 1012650840000, 1012575430000,
  1012479470000, 1012361110000, 1012219810000, 1012054360000, 1011864000000, 1011647220000, 1011402520000,
  1011129650000, 1010826950000, 1010492920000, 1010126350000, 1009725890000, 1009290060000, 1008817300000,
  1008305030000, 1007752830000, 1007157830000, 1006518050000, 1005831400000, 1005095590000, 1004308630000,
  1003467500000, 1002569500000, 1001612710000, 1000594270000, 999511170000, 998360922000, 997140929000, 995848886000,
  994481854000, 993037528000, 991514656000, 989913680000, 988193062000, 985942259000, 983566790000, 981142303000,
  978521444000, 975663604000, 972545344000, 969145663000, 965440618000, 961404362000, 957011307000, 952236767000,
  947054884000, 941440374000, 935369161000, 928819009000, 921766289000, 914189628000, 906069468000, 897389168000,
  888133200000, 878289389000, 867846957000, 856797064000, 845133465000, 832854281000, 819959478000, 806451101000,
  792334648000, 777620449000, 762320618000, 746448649000, 730020573000, 713056738000, 695580544000, 677617323000,
  659195531000, 640348643000, 621107220000, 601504928000, 581578761000, 561367451000, 540918863000, 520273683000,
  499478073000, 478577418000, 457617260000, 436649021000, 415722146000, 394885659000, 374190319000, 353686890000,
  333426002000, 313458647000, 293833790000, 274599264000, 255803064000, 237490219000, 219703603000, 202485542000,
  185874992000, 169906780000, 154613227000, 140023821000, 126163740000, 113053443000, 100708497000, 89140243900,
  78356121000, 68358212300, 59142115400, 50698930100, 43017177600, 36080207300, 29863163400, 24337226600, 19476752400,
  15257101700, 11637874900, 8433087780, 4449669000]

/-- `mdct_win_10m_48k`, src/tables.c:3245-3441, divided by `10^12`. -/
def win_10m_48k : List Int := [
  -235303215, -461989875, -626293154, -792918043, -974716672, -1180256890, -1409209040, -1664473100, -1946591610,
  -2257081730, -2597106920, -2967607620, -3370454880, -3806285160, -4276873770, -4782469900, -5324608720, -5903403810,
  -6520419730, -7175885280, -7871422820, -8606586040, -9382480860, -10198271800, -11055205500, -11952703000,
  -12892059100, -13872634800, -14895281600, -15958566200, -17062885600, -18206664000, -19390659800, -20613554200,
  -21875709300, -23175263200, -24512274500, -25884719400, -27292637400, -28733909000, -30208627400, -31714403700,
  -33250988600, -34815977900, -36408924100, -38027423200, -39670679900, -41335754200, -43022033700, -44726980500,
  -46450222900, -48188914900, -49942258600, -51706908000, -53481620400, -55263347900, -57051231500, -58842717500,
  -60637172400, -62431040300, -64223035500, -66009615200, -67789622700, -69559968700, -71319662700, -73065812700,
  -74797589100, -76511782300, -78207114200, -79880106900, -81529640100, -83152373500, -84747289500, -86311375400,
  -87843744500, -89341643600, -90804112900, -92227957600, -93612328700, -94953777600, -96251553100, -97502846200,
  -98707365100, -99862712900, -100968022000, -102020268000, -103018380000, -103959636000, -104843883000,
  -105668684000, -106434282000, -107138231000, -107779996000, -108357063000, -108869014000, -109313559000,
  -109690356000, -109996966000, -110233226000, -110397281000, -110489847000, -110508642000, -110453743000,
  -110322584000, -110114583000, -109827693000, -109462175000, -109016396000, -108490885000, -107883429000,
  -107193718000, -106419636000, -105561251000, -104616281000, -103584904000, -102465016000, -101256900000,
  -99958645700, -98570145700, -97089111400, -95515458200, -93846849200, -92083000600, -90221710200, -88263099900,
  -86204938200, -84047421500, -81787927200, -79426250300, -76959807800, -74387856000, -71707970000, -68919947800,
  -66021898000, -63013494200, -59891919100, -56656556400, -53304061600, -49834272400, -46244568900, -42534556900,
  -38701957700, -34745857800, -30663415200, -26454250800, -22115816100, -17647405400, -13045813600, -8310425700,
  -3438268660, 1570315480, 6717697640, 12004770200, 17433983200, 23006420600, 28724814200, 34588963500, 40601064600,
  46761029200, 53071339100, 59532390900, 66146478100, 72912931800, 79833541900, 86908074100, 94138137700,
  101523314000, 109065152000, 116762655000, 124617139000, 132627295000, 140793819000, 149115252000, 157592141000,
  166222480000, 175006740000, 183943194000, 193031818000, 202269985000, 211656743000, 221188852000, 230865538000,
  240683799000, 250642064000, 260736512000, 270965907000, 281325902000, 291814469000, 302427028000, 313160350000,
  324009570000, 334971959000, 346042294000, 357217518000, 368491565000, 379859512000, 391314689000, 402853287000,
  414468833000, 426157164000, 437911390000, 449725632000, 461592545000, 473506703000, 485460018000, 497447159000,
  509459723000, 521490984000, 533532682000, 545578981000, 557621716000, 569654673000, 581668558000, 593656062000,
  605608382000, 617519206000, 629379661000, 641183084000, 652920354000, 664584079000, 676165350000, 687657395000,
  699051154000, 710340055000, 721514933000, 732569177000, 743494372000, 754284633000, 764931365000, 775428189000,
  785767017000, 795941465000, 805943723000, 815768707000, 825408622000, 834858937000, 844112583000, 853165119000,
  862010834000, 870645634000, 879063156000, 887259971000, 895231329000, 902975168000, 910486312000, 917762555000,
  924799743000, 931596250000, 938149486000, 944458839000, 950522086000, 956340292000, 961911452000, 967236671000,
  972315664000, 977150119000, 981739750000, 986086587000, 990190638000, 994055718000, 997684240000, 1001080960000,
  1004247510000, 1007188580000, 1009906650000, 1012407430000, 1014694700000, 1016774660000, 1018650990000,
  1020330460000, 1021817330000, 1023118840000, 1024240260000, 1025189720000, 1025972450000, 1026596940000,
  1027069180000, 1027397520000, 1027587900000, 1027648950000, 1027585830000, 1027408520000, 1027122990000,
  1026738670000, 1026261660000, 1025701000000, 1025061780000, 1024353980000, 1023582390000, 1022756510000,
  1021880600000, 1020963870000, 1020009140000, 1019027290000, 1018019440000, 1016996500000, 1015957430000,
  1014923440000, 1013915950000, 1013047570000, 1012216130000, 1011044870000, 1009914590000, 1008824890000,
  1007773860000, 1006761700000, 1005786650000, 1004848750000, 1003946080000, 1003078850000, 1002245010000,
  1001444730000, 1000676190000, 999939317000, 999232085000, 998554813000, 997905542000, 997284268000, 996689095000,
  996120338000, 995576126000, 995056572000, 994559753000, 994086038000, 993633779000, 993203161000, 992792187000,
  992401518000, 992029727000, 991676778000, 991340877000, 991023065000, 990721643000, 990436680000, 990166895000,
  989913101000, 989673564000, 989448837000, 989237484000, 989040193000, 988855636000, 988684347000, 988524761000,
  988377852000, 988242327000, 988118564000, 988005163000, 987903202000, 987811174000, 987729546000, 987657198000,
  987594984000, 987541274000, 987496906000, 987460625000, 987432981000, 987412641000, 987400475000, 987394992000,
  987396916000, 987404906000, 987419705000, 987439972000, 987466328000, 987497321000, 987533893000, 987574654000,
  987620124000, 987668980000, 987722156000, 987778192000, 987837649000, 987899199000, 987963798000, 988030030000,
  988098468000, 988167801000, 988239030000, 988310769000, 988383520000, 988456016000, 988529420000, 988602222000,
  988674940000, 988746626000, 988818277000, 988888248000, 988957438000, 989024798000, 989091125000, 989155170000,
  989217866000, 989277956000, 989336519000, 989392368000, 989446283000, 989497212000, 989546334000, 989592362000,
  989636265000, 989677201000, 989716220000, 989752029000, 989785920000, 989817027000, 989846207000, 989872536000,
  989897514000, 989920005000, 989941079000, 989960061000, 989978226000, 989994556000, 990010350000, 990024832000,
  990039402000, 990053211000, 990067475000, 990081472000, 990096693000, 990112245000, 990129379000, 990147465000,
  990168060000, 990190227000, 990215190000, 990242442000, 990273445000, 990307127000, 990344891000, 990386228000,
  990432448000, 990482565000, 990537983000, 990598060000, 990664037000, 990734883000, 990812038000, 990894786000,
  990984259000, 991079525000, 991181924000, 991290512000, 991406471000, 991528801000, 991658694000, 991795272000,
  991939622000, 992090615000, 992249503000, 992415240000, 992588721000, 992768871000, 992956911000, 993151653000,
  993353924000, 993562689000, 993779087000, 994001643000, 994231202000, 994466818000, 994709344000, 994957285000,
  995211663000, 995471264000, 995736795000, 996006862000, 996282303000, 996561799000, 996846133000, 997133827000,
  997425669000, 997720337000, 998018509000, 998318587000, 998621352000, 998925543000, 999231731000, 999538258000,
  999846116000, 1000153910000, 1000461960000, 1000768860000, 1001075610000, 1001380550000, 1001684240000,
  1001985430000, 1002284870000, 1002580980000, 1002874410000, 1003163850000, 1003450060000, 1003731570000,
  1004009150000, 1004281460000, 1004549340000, 1004811380000, 1005068270000, 1005318800000, 1005563970000,
  1005802270000, 1006034550000, 1006259860000, 1006479020000, 1006690540000, 1006895570000, 1007093050000,
  1007283800000, 1007466620000, 1007642730000, 1007811040000, 1007972440000, 1008125880000, 1008272600000,
  1008411470000, 1008543570000, 1008668020000, 1008786010000, 1008896530000, 1009000770000, 1009097760000,
  1009188880000, 1009273160000, 1009351760000, 1009423940000, 1009491180000, 1009552400000, 1009608890000,
  1009659970000, 1009707090000, 1009749240000, 1009787740000, 1009822090000, 1009853710000, 1009881500000,
  1009906960000, 1009929570000, 1009950570000, 1009969020000, 1009986500000, 1010002360000, 1010017890000,
  1010032170000, 1010046720000, 1010060810000, 1010075670000, 1010090450000, 1010106560000, 1010123230000,
  1010141760000, 1010161130000, 1010182640000, 1010205590000, 1010231080000, 1010257950000, 1010287730000,
  1010319480000, 1010354080000, 1010390640000, 1010430470000, 1010472270000, 1010517100000, 1010564100000,
  1010614270000, 1010666290000, 1010721360000, 1010778420000, 1010838250000, 1010899660000, 1010963730000,
  1011029190000, 1011096990000, 1011165860000, 1011236610000, 1011308170000, 1011381450000, 1011454790000,
  1011529190000, 1011603680000, 1011678800000, 1011753010000, 1011827480000, 1011900940000, 1011973880000,
  1012044890000, 1012114990000, 1012182840000, 1012249020000, 1012312100000, 1012373030000, 1012430460000,
  1012484970000, 1012535060000, 1012581680000, 1012623470000, 1012660980000, 1012692760000, 1012719790000,
  1012740580000, 1012755750000, 1012763950000, 1012765920000, 1012760300000, 1012747820000, 1012726960000,
  1012698610000, 1012661400000, 1012615900000, 1012560830000, 1012497050000, 1012422890000, 1012339230000,
  1012244920000, 1012140460000, 1012024300000, 1011897560000, 1011758810000, 1011608450000, 1011445160000,
  1011269960000, 1011081260000, 1010879610000, 1010663680000, 1010434180000, 1010189680000, 1009930750000,
  1009655660000, 1009365250000, 1009058250000, 1008734760000, 1008393080000, 1008034310000, 1007656660000,
  1007260140000, 1006843350000, 1006407010000, 1005949150000, 1005470010000, 1004967990000, 1004443530000,
  1003894770000, 1003321900000, 1002723130000, 1002098850000, 1001447280000, 1000768510000, 1000060690000,
  999324268000, 998557350000, 997760020000, 996930604000, 996069427000, 995174643000, 994246644000, 993283713000,
  992286108000, 991252309000, 990182742000, 989075787000, 987931302000, 986355322000, 984736245000, 983175095000,
  981558334000, 979861353000, 978061749000, 976157432000, 974137862000, 971999011000, 969732741000, 967333198000,
  964791512000, 962101150000, 959253976000, 956242718000, 953060091000, 949698408000, 946149812000, 942407161000,
  938463416000, 934311297000, 929944987000, 925356797000, 920540463000, 915489628000, 910198679000, 904662060000,
  898875519000, 892833832000, 886533719000, 879971272000, 873143784000, 866047653000, 858681252000, 851042044000,
  843129723000, 834943514000, 826483991000, 817750537000, 808744982000, 799468149000, 789923516000, 780113773000,
  770043128000, 759714574000, 749133097000, 738302860000, 727229876000, 715920192000, 704381434000, 692619693000,
  680643883000, 668461648000, 656083014000, 643517927000, 630775533000, 617864165000, 604795463000, 591579959000,
  578228937000, 564753589000, 551170316000, 537490509000, 523726350000, 509891542000, 496000807000, 482066294000,
  468101711000, 454121700000, 440142182000, 426177297000, 412241789000, 398349961000, 384517234000, 370758372000,
  357088679000, 343522867000, 330076376000, 316764033000, 303600465000, 290599616000, 277775850000, 265143468000,
  252716188000, 240506985000, 228528397000, 216793343000, 205313990000, 194102191000, 183168087000, 172522195000,
  162173542000, 152132068000, 142405280000, 133001524000, 123926066000, 115185830000, 106784043000, 98726375100,
  91013790000, 83650572400, 76635083100, 69970334100, 63651881100, 57681760200, 52052442200, 46765384100, 41809505400,
  37186402500, 32880727500, 28895485000, 25209805700, 21830575600, 18728961900, 15921278200, 13363814300, 11085588800,
  8943474190, 6758124890, 3504438130]

/-- `mdct_win_10m_48k_hr`, src/tables.c:3445-3641, divided by `10^16`. -/
def win_10m_48k_hr : List Int := [
  0, 0, 0, 0, 0, 0, 0, 0, 0, 0, 0, 0, 0, 0, 0, 0, 0, 0, 0, 0, 0, 0, 0, 0, 0, 0, 0, 0, 0, 0, 0, 0, 0, 0, 0, 0, 0, 0, 0,
  0, 0, 0, 0, 0, 0, 0, 0, 0, 0, 0, 0, 0, 0, 0, 0, 0, 0, 0, 0, 0, 0, 0, 0, 0, 0, 0, 0, 0, 0, 0, 0, 0, 0, 0, 0, 0, 0, 0,
  0, 0, 0, 0, 0, 0, 0, 0, 0, 0, 0, 0, 0, 0, 0, 0, 0, 0, 0, 0, 0, 0, 0, 0, 0, 0, 0, 0, 0, 0, 0, 0, 0, 0, 0, 0, 0, 0, 0,
  0, 0, 0, 942341174, 6198383740, 18260381000, 42274155000, 85682213500, 159013834000, 276738483000, 458246141000,
  728956657000, 1121553360000, 1677330290000, 2447635920000, 3495390700000, 4896648460000, 6742164840000,
  9138932220000, 12211626200000, 16103918900000, 20979596300000, 27023411800000, 34441629000000, 43462174900000,
  54334369500000, 67328126200000, 82732662600000, 100854570000000, 122015327000000, 146548180000000, 174794346000000,
  207098722000000, 243804958000000, 285249949000000, 331758074000000, 383635014000000, 441161096000000,
  504585020000000, 574117042000000, 649922863000000, 732117295000000, 820759088000000, 915845558000000,
  1017308980000000, 1125012790000000, 1238750070000000, 1358242180000000, 1483138950000000, 1613020900000000,
  1747401510000000, 1885731520000000, 2027405350000000, 2171766910000000, 2318117770000000, 2465726440000000,
  2613838320000000, 2761684950000000, 2908496260000000, 3053511380000000, 3195988240000000, 3335216640000000,
  3470526640000000, 3601299820000000, 3726979200000000, 3847073320000000, 3961165250000000, 4068917330000000,
  4170075360000000, 4264469150000000, 4352014060000000, 4432710410000000, 4506640140000000, 4573963880000000,
  4634915290000000, 4689794780000000, 4738963840000000, 4782836740000000, 4821872120000000, 4856565890000000,
  4887442290000000, 4915046990000000, 4939937890000000, 4962679740000000, 4983837600000000, 5003969670000000,
  5023624300000000, 5043334960000000, 5063616040000000, 5084961060000000, 5107839110000000, 5132693650000000,
  5159940720000000, 5189965960000000, 5223124620000000, 5259739160000000, 5300099250000000, 5344458220000000,
  5393032430000000, 5446000700000000, 5503502490000000, 5565634970000000, 5632455350000000, 5703978540000000,
  5780177710000000, 5860983130000000, 5946285130000000, 6035932900000000, 6129738690000000, 6227478380000000,
  6328894500000000, 6433700920000000, 6541582350000000, 6652202010000000, 6765202880000000, 6880212430000000,
  6996847390000000, 7114714980000000, 7233420010000000, 7352567320000000, 7471764090000000, 7590624690000000,
  7708774210000000, 7825849060000000, 7941501140000000, 8055400250000000, 8167234660000000, 8276714090000000,
  8383569720000000, 8487556580000000, 8588451150000000, 8686057330000000, 8780199890000000, 8870729800000000,
  8957521320000000, 9040471910000000, 9119502900000000, 9194558260000000, 9265602230000000, 9332622290000000,
  9395626190000000, 9454641340000000, 9509714250000000, 9560909870000000, 9608311060000000, 9652016760000000,
  9692142010000000, 9728815560000000, 9762178660000000, 9792385100000000, 9819597010000000, 9843985440000000,
  9865726230000000, 9884999990000000, 9901989700000000, 9916876550000000, 9929842350000000, 9941062930000000,
  9950711130000000, 9958951470000000, 9965941310000000, 9971829650000000, 9976754780000000, 9980845450000000,
  9984219670000000, 9986985330000000, 9989238380000000, 9991065860000000, 9992542270000000, 9993734960000000,
  9994700550000000, 9995487330000000, 9996136430000000, 9996680020000000, 9997146730000000, 9997557400000000,
  9997928740000000, 9998273850000000, 9998601680000000, 9998919370000000, 9999231100000000, 9999539850000000,
  9999846820000000, 10000152600000000, 10000457800000000, 10000761700000000, 10001062200000000, 10001360200000000,
  10001654600000000, 10001943100000000, 10002225600000000, 10002501000000000, 10002769200000000, 10003029100000000,
  10003279400000000, 10003520300000000, 10003749100000000, 10003968500000000, 10004174700000000, 10004369000000000,
  10004550200000000, 10004718300000000, 10004872100000000, 10005011600000000, 10005136700000000, 10005247600000000,
  10005341800000000, 10005422800000000, 10005487200000000, 10005536100000000, 10005569500000000, 10005588500000000,
  10005590900000000, 10005579000000000, 10005550400000000, 10005508700000000, 10005450200000000, 10005378700000000,
  10005292900000000, 10005192800000000, 10005078300000000, 10004952000000000, 10004811300000000, 10004659900000000,
  10004495400000000, 10004320100000000, 10004133000000000, 10003936300000000, 10003730100000000, 10003514300000000,
  10003289000000000, 10003056500000000, 10002815700000000, 10002569000000000, 10002315000000000, 10002056400000000,
  10001792900000000, 10001523500000000, 10001251700000000, 10000976300000000, 10000699800000000, 10000420800000000,
  10000140700000000, 9999859930000000, 9999579790000000, 9999300840000000, 9999023080000000, 9998748300000000,
  9998475910000000, 9998207690000000, 9997943640000000, 9997684960000000, 9997431640000000, 9997184280000000,
  9996944670000000, 9996711610000000, 9996487500000000, 9996271730000000, 9996064900000000, 9995868210000000,
  9995682240000000, 9995506410000000, 9995342490000000, 9995190500000000, 9995051030000000, 9994924070000000,
  9994810220000000, 9994710090000000, 9994624260000000, 9994552140000000, 9994494920000000, 9994452000000000,
  9994424580000000, 9994412060000000, 9994415040000000, 9994432930000000, 9994466900000000, 9994515780000000,
  9994580750000000, 9994660620000000, 9994755980000000, 9994865660000000, 9994990830000000, 9995130300000000,
  9995284080000000, 9995451570000000, 9995632770000000, 9995827080000000, 9996033310000000, 9996252060000000,
  9996481540000000, 9996721740000000, 9996972080000000, 9997231360000000, 9997499590000000, 9997774960000000,
  9998057480000000, 9998345970000000, 9998639820000000, 9998937850000000, 9999238850000000, 9999542240000000,
  9999847410000000, 10000152600000000, 10000457800000000, 10000761700000000, 10001062200000000, 10001360200000000,
  10001654600000000, 10001943100000000, 10002225600000000, 10002501000000000, 10002769200000000, 10003029100000000,
  10003279400000000, 10003520300000000, 10003749100000000, 10003968500000000, 10004174700000000, 10004369000000000,
  10004550200000000, 10004718300000000, 10004872100000000, 10005011600000000, 10005136700000000, 10005247600000000,
  10005341800000000, 10005422800000000, 10005487200000000, 10005536100000000, 10005569500000000, 10005588500000000,
  10005590900000000, 10005579000000000, 10005550400000000, 10005508700000000, 10005450200000000, 10005378700000000,
  10005292900000000, 10005192800000000, 10005078300000000, 10004952000000000, 10004811300000000, 10004659900000000,
  10004495400000000, 10004320100000000, 10004133000000000, 10003936300000000, 10003730100000000, 10003514300000000,
  10003289000000000, 10003056500000000, 10002815700000000, 10002569000000000, 10002315000000000, 10002056400000000,
  10001792900000000, 10001523500000000, 10001251700000000, 10000976300000000, 10000699800000000, 10000420800000000,
  10000140700000000, 9999859930000000, 9999579790000000, 9999300840000000, 9999023080000000, 9998748300000000,
  9998475910000000, 9998207690000000, 9997943640000000, 9997684960000000, 9997431640000000, 9997184280000000,
  9996944670000000, 9996711610000000, 9996487500000000, 9996271730000000, 9996064900000000, 9995868210000000,
  9995682240000000, 9995506410000000, 9995342490000000, 9995190500000000, 9995051030000000, 9994924070000000,
  9994810220000000, 9994710090000000, 9994624260000000, 9994552140000000, 9994494920000000, 9994452000000000,
  9994424580000000, 9994412060000000, 9994415040000000, 9994432930000000, 9994466900000000, 9994515780000000,
  9994580750000000, 9994660620000000, 9994755980000000, 9994865660000000, 9994990830000000, 9995130300000000,
  9995284080000000, 9995451570000000, 9995632770000000, 9995827080000000, 9996033310000000, 9996252060000000,
  9996481540000000, 9996721740000000, 9996972080000000, 9997231360000000, 9997499590000000, 9997774960000000,
  9998057480000000, 9998345970000000, 9998639820000000, 9998937850000000, 9999238850000000, 9999542240000000,
  9999847410000000, 10000152600000000, 10000457800000000, 10000761700000000, 10001062200000000, 10001360200000000,
  10001654600000000, 10001943100000000, 10002225600000000, 10002501000000000, 10002769200000000, 10003029100000000,
  10003279400000000, 10003520300000000, 10003749100000000, 10003968500000000, 10004174700000000, 10004369000000000,
  10004550200000000, 10004718300000000, 10004872100000000, 10005011600000000, 10005136700000000, 10005247600000000,
  10005341800000000, 10005422800000000, 10005487200000000, 10005536100000000, 10005569500000000, 10005588500000000,
  10005590900000000, 10005579000000000, 10005550400000000, 10005508700000000, 10005450200000000, 10005378700000000,
  10005292900000000, 10005192800000000, 10005078300000000, 10004952000000000, 10004811300000000, 10004659900000000,
  10004495400000000, 10004320100000000, 10004133000000000, 10003936300000000, 10003730100000000, 10003514300000000,
  10003289000000000, 10003056500000000, 10002815700000000, 10002569000000000, 10002315000000000, 10002056400000000,
  10001792900000000, 10001523500000000, 10001251700000000, 10000976300000000, 10000699800000000, 10000420800000000,
  10000140700000000, 9999859930000000, 9999579790000000, 9999300840000000, 9999023080000000, 9998748300000000,
  9998475910000000, 9998207690000000, 9997943640000000, 9997684960000000, 9997431640000000, 9997184280000000,
  9996944670000000, 9996711610000000, 9996487500000000, 9996271730000000, 9996064900000000, 9995868210000000,
  9995682240000000, 9995506410000000, 9995342490000000, 9995190500000000, 9995051030000000, 9994924070000000,
  9994810220000000, 9994710090000000, 9994624260000000, 9994552140000000, 9994494920000000, 9994452000000000,
  9994424580000000, 9994412060000000, 9994415040000000, 9994432930000000, 9994466900000000, 9994515780000000,
  9994580750000000, 9994660620000000, 9994755980000000, 9994865660000000, 9994990830000000, 9995130300000000,
  9995284080000000, 9995451570000000, 9995632770000000, 9995827080000000, 9996033310000000, 9996252060000000,
  9996481540000000, 9996721740000000, 9996972080000000, 9997231360000000, 9997499590000000, 9997774960000000,
  9998057480000000, 9998345970000000, 9998639820000000, 9998937850000000, 9999238850000000, 9999542240000000,
  9999847410000000, 10000152600000000, 10000455400000000, 10000753400000000, 10001044300000000, 10001322000000000,
  10001581900000000, 10001813200000000, 10002007500000000, 10002148200000000, 10002217300000000, 10002192300000000,
  10002043200000000, 10001736900000000, 10001227900000000, 10000468500000000, 9999399780000000, 9997951980000000,
  9996045830000000, 9993592500000000, 9990488890000000, 9986621140000000, 9981861710000000, 9976068140000000,
  9969083670000000, 9960737230000000, 9950839880000000, 9939187170000000, 9925556780000000, 9909706710000000,
  9891378880000000, 9870293740000000, 9846153260000000, 9818639160000000, 9787415860000000, 9752127530000000,
  9712402820000000, 9667854910000000, 9618083830000000, 9562681320000000, 9501233100000000, 9433323740000000,
  9358543160000000, 9276489620000000, 9186779260000000, 9089049100000000, 8982965350000000, 8868231770000000,
  8744591470000000, 8611838220000000, 8469819430000000, 8318440910000000, 8157674670000000, 7987558840000000,
  7808204290000000, 7619795200000000, 7422591450000000, 7216928600000000, 7003217940000000, 6781946420000000,
  6553672550000000, 6319026350000000, 6078704600000000, 5833465460000000, 5584124330000000, 5331549050000000,
  5076649790000000, 4820374850000000, 4563701750000000, 4307627080000000, 4053157570000000, 3801300530000000,
  3553051950000000, 3309387270000000, 3071248830000000, 2839534280000000, 2615087030000000, 2398683880000000,
  2191026060000000, 1992729460000000, 1804316940000000, 1626212150000000, 1458734420000000, 1302096550000000,
  1156403870000000, 1021655720000000, 897749513000000, 784486011000000, 681576878000000, 588653944000000,
  505279638000000, 430957973000000, 365146622000000, 307268873000000, 256725382000000, 212905537000000,
  175197981000000, 143000064000000, 115726292000000, 92815365600000, 73735965400000, 57991226200000, 45121889600000,
  34708329500000, 26371418500000, 19772464900000, 14612309200000, 10629732900000, 7599300010000, 5328808330000,
  3656440530000, 2447753800000, 1592606710000, 1002110510000, 605685127000, 348275607000, 187775731000, 92690206700,
  40052341300, 13598916000, 2067694420]

/-- `mdct_win_10m_96k_hr`, src/tables.c:3643-4034, divided by `10^16`. -/
def win_10m_96k_hr : List Int := [
  0, 0, 0, 0, 0, 0, 0, 0, 0, 0, 0, 0, 0, 0, 0, 0, 0, 0, 0, 0, 0, 0, 0, 0, 0, 0, 0, 0, 0, 0, 0, 0, 0, 0, 0, 0, 0, 0, 0,
  0, 0, 0, 0, 0, 0, 0, 0, 0, 0, 0, 0, 0, 0, 0, 0, 0, 0, 0, 0, 0, 0, 0, 0, 0, 0, 0, 0, 0, 0, 0, 0, 0, 0, 0, 0, 0, 0, 0,
  0, 0, 0, 0, 0, 0, 0, 0, 0, 0, 0, 0, 0, 0, 0, 0, 0, 0, 0, 0, 0, 0, 0, 0, 0, 0, 0, 0, 0, 0, 0, 0, 0, 0, 0, 0, 0, 0, 0,
  0, 0, 0, 0, 0, 0, 0, 0, 0, 0, 0, 0, 0, 0, 0, 0, 0, 0, 0, 0, 0, 0, 0, 0, 0, 0, 0, 0, 0, 0, 0, 0, 0, 0, 0, 0, 0, 0, 0,
  0, 0, 0, 0, 0, 0, 0, 0, 0, 0, 0, 0, 0, 0, 0, 0, 0, 0, 0, 0, 0, 0, 0, 0, 0, 0, 0, 0, 0, 0, 0, 0, 0, 0, 0, 0, 0, 0, 0,
  0, 0, 0, 0, 0, 0, 0, 0, 0, 0, 0, 0, 0, 0, 0, 0, 0, 0, 0, 0, 0, 0, 0, 0, 0, 0, 0, 0, 0, 0, 0, 0, 0, 0, 0, 0, 0, 0, 0,
  0, 0, 0, 0, 0, 0, 666310811, 2237239160, 4875418540, 8996727270, 15114183000, 23859081500, 36000215000, 52464588400,
  74359995800, 102999529000, 139928125000, 186951092000, 246164800000, 319989194000, 411202636000, 522978444000,
  658923600000, 823118899000, 1020161440000, 1255208190000, 1534020990000, 1863013600000, 2249298410000,
  2700735350000, 3225980620000, 3834535890000, 4536797060000, 5344104140000, 6268787550000, 7324216420000,
  8524844890000, 9886252230000, 11425188300000, 13159608900000, 15108711100000, 17292965200000, 19734143300000,
  22455337500000, 25480981000000, 28836855200000, 32550101200000, 36649210400000, 41164020100000, 46125701600000,
  51566730300000, 57520843100000, 64023020700000, 71109426200000, 78817335900000, 87185092300000, 96251992500000,
  106058242000000, 116644828000000, 128053408000000, 140326228000000, 153505951000000, 167635549000000,
  182758160000000, 198916886000000, 216154736000000, 234514344000000, 254037846000000, 274766665000000,
  296741407000000, 320001543000000, 344585292000000, 370529443000000, 397869013000000, 426637232000000,
  456865206000000, 488581695000000, 521813035000000, 556582808000000, 592911765000000, 630817562000000,
  670314580000000, 711413696000000, 754122287000000, 798443928000000, 844378322000000, 891921073000000,
  941063836000000, 991793722000000, 1044093740000000, 1097942520000000, 1153314040000000, 1210177990000000,
  1268499490000000, 1328239290000000, 1389353570000000, 1451794210000000, 1515508740000000, 1580440250000000,
  1646528100000000, 1713707300000000, 1781909470000000, 1851061880000000, 1921088990000000, 1991911830000000,
  2063448130000000, 2135613110000000, 2208319600000000, 2281477900000000, 2354996500000000, 2428782280000000,
  2502740920000000, 2576777040000000, 2650794390000000, 2724696700000000, 2798387710000000, 2871771450000000,
  2944752570000000, 3017237190000000, 3089132310000000, 3160346750000000, 3230792280000000, 3300381900000000,
  3369031850000000, 3436661960000000, 3503193860000000, 3568555120000000, 3632675710000000, 3695489470000000,
  3756935000000000, 3816955980000000, 3875499960000000, 3932519850000000, 3987973330000000, 4041823150000000,
  4094038010000000, 4144591090000000, 4193461240000000, 4240632360000000, 4286094010000000, 4329841430000000,
  4371874030000000, 4412197470000000, 4450821880000000, 4487762750000000, 4523039760000000, 4556678240000000,
  4588707090000000, 4619160000000000, 4648074510000000, 4675492640000000, 4701459110000000, 4726022780000000,
  4749235810000000, 4771152440000000, 4791830480000000, 4811329840000000, 4829712210000000, 4847042260000000,
  4863384960000000, 4878807660000000, 4893378320000000, 4907166660000000, 4920242130000000, 4932675360000000,
  4944536690000000, 4955897030000000, 4966827330000000, 4977397620000000, 4987677930000000, 4997737410000000,
  5007644890000000, 5017467740000000, 5027272700000000, 5037125950000000, 5047091250000000, 5057231780000000,
  5067609550000000, 5078284740000000, 5089315180000000, 5100759270000000, 5112671850000000, 5125105980000000,
  5138114690000000, 5151748060000000, 5166053770000000, 5181078310000000, 5196865800000000, 5213459730000000,
  5230899450000000, 5249223110000000, 5268467660000000, 5288666490000000, 5309851770000000, 5332052110000000,
  5355294940000000, 5379605290000000, 5405004620000000, 5431513790000000, 5459149480000000, 5487926600000000,
  5517858270000000, 5548952820000000, 5581218000000000, 5614658000000000, 5649275180000000, 5685067770000000,
  5722033380000000, 5760165450000000, 5799455640000000, 5839892030000000, 5881460910000000, 5924146770000000,
  5967929360000000, 6012789010000000, 6058700680000000, 6105639930000000, 6153577570000000, 6202484370000000,
  6252327560000000, 6303073170000000, 6354685430000000, 6407126190000000, 6460356120000000, 6514335270000000,
  6569020150000000, 6624368430000000, 6680334810000000, 6736873980000000, 6793938880000000, 6851482390000000,
  6909456250000000, 6967812780000000, 7026501300000000, 7085474130000000, 7144681220000000, 7204073070000000,
  7263599630000000, 7323212030000000, 7382861380000000, 7442498800000000, 7502076030000000, 7561545970000000,
  7620860340000000, 7679974440000000, 7738841770000000, 7797418240000000, 7855660320000000, 7913525700000000,
  7970972660000000, 8027961850000000, 8084453340000000, 8140410180000000, 8195795420000000, 8250574470000000,
  8304713960000000, 8358181120000000, 8410946130000000, 8462979200000000, 8514252310000000, 8564739230000000,
  8614416120000000, 8663258550000000, 8711245660000000, 8758356570000000, 8804572820000000, 8849877720000000,
  8894254570000000, 8937689660000000, 8980170490000000, 9021685120000000, 9062224030000000, 9101778860000000,
  9140341880000000, 9177907710000000, 9214472170000000, 9250032310000000, 9284586910000000, 9318134190000000,
  9350675940000000, 9382214550000000, 9412752990000000, 9442296030000000, 9470849040000000, 9498419760000000,
  9525015950000000, 9550646540000000, 9575321670000000, 9599053260000000, 9621853230000000, 9643735290000000,
  9664713740000000, 9684802890000000, 9704020020000000, 9722381230000000, 9739904400000000, 9756608010000000,
  9772511120000000, 9787633420000000, 9801995750000000, 9815617800000000, 9828521610000000, 9840728640000000,
  9852260950000000, 9863141180000000, 9873391390000000, 9883034830000000, 9892093540000000, 9900590780000000,
  9908549190000000, 9915991430000000, 9922940140000000, 9929417970000000, 9935446380000000, 9941048030000000,
  9946243760000000, 9951055050000000, 9955502150000000, 9959605340000000, 9963384270000000, 9966858630000000,
  9970046280000000, 9972965720000000, 9975633620000000, 9978067280000000, 9980283380000000, 9982295630000000,
  9984120730000000, 9985771180000000, 9987261890000000, 9988604780000000, 9989811780000000, 9990894790000000,
  9991863970000000, 9992730620000000, 9993503690000000, 9994191530000000, 9994803070000000, 9995345470000000,
  9995827080000000, 9996253250000000, 9996630550000000, 9996964340000000, 9997260570000000, 9997522830000000,
  9997755890000000, 9997963310000000, 9998149280000000, 9998315570000000, 9998465780000000, 9998602870000000,
  9998728040000000, 9998843070000000, 9998950360000000, 9999051090000000, 9999145870000000, 9999236460000000,
  9999324080000000, 9999408720000000, 9999490980000000, 9999571440000000, 9999650720000000, 9999729390000000,
  9999807480000000, 9999884370000000, 9999961260000000, 10000038100000000, 10000114400000000, 10000190700000000,
  10000267000000000, 10000343300000000, 10000418400000000, 10000493500000000, 10000568600000000, 10000643700000000,
  10000717600000000, 10000790400000000, 10000863100000000, 10000935800000000, 10001007300000000, 10001077700000000,
  10001148000000000, 10001215900000000, 10001283900000000, 10001351800000000, 10001417400000000, 10001483000000000,
  10001546100000000, 10001609300000000, 10001670100000000, 10001730900000000, 10001789300000000, 10001846600000000,
  10001902600000000, 10001957400000000, 10002009900000000, 10002062300000000, 10002112400000000, 10002161300000000,
  10002207800000000, 10002253100000000, 10002297200000000, 10002338900000000, 10002379400000000, 10002417600000000,
  10002454500000000, 10002489100000000, 10002522500000000, 10002553500000000, 10002583300000000, 10002610700000000,
  10002635700000000, 10002659600000000, 10002682200000000, 10002701300000000, 10002720400000000, 10002735900000000,
  10002750200000000, 10002762100000000, 10002772800000000, 10002781200000000, 10002788300000000, 10002791900000000,
  10002795500000000, 10002795500000000, 10002794300000000, 10002791900000000, 10002785900000000, 10002780000000000,
  10002770400000000, 10002759700000000, 10002747800000000, 10002733500000000, 10002716800000000, 10002698900000000,
  10002678600000000, 10002657200000000, 10002634500000000, 10002609500000000, 10002582100000000, 10002553500000000,
  10002523700000000, 10002492700000000, 10002459300000000, 10002423500000000, 10002387800000000, 10002349600000000,
  10002309100000000, 10002268600000000, 10002225600000000, 10002182700000000, 10002137400000000, 10002090900000000,
  10002042100000000, 10001993200000000, 10001943100000000, 10001890700000000, 10001838200000000, 10001784600000000,
  10001729700000000, 10001673700000000, 10001616500000000, 10001558100000000, 10001498500000000, 10001438900000000,
  10001378100000000, 10001316100000000, 10001252900000000, 10001189700000000, 10001125300000000, 10001061000000000,
  10000995400000000, 10000929800000000, 10000863100000000, 10000796300000000, 10000728400000000, 10000660400000000,
  10000591300000000, 10000523300000000, 10000454200000000, 10000385000000000, 10000314700000000, 10000245600000000,
  10000175200000000, 10000104900000000, 10000034600000000, 9999964830000000, 9999895100000000, 9999824760000000,
  9999755020000000, 9999685290000000, 9999615550000000, 9999546410000000, 9999477270000000, 9999408130000000,
  9999339580000000, 9999271630000000, 9999204280000000, 9999136920000000, 9999070760000000, 9999004600000000,
  9998939040000000, 9998874660000000, 9998810290000000, 9998747110000000, 9998684530000000, 9998622540000000,
  9998561740000000, 9998501540000000, 9998442530000000, 9998384120000000, 9998326900000000, 9998270870000000,
  9998216030000000, 9998161790000000, 9998109340000000, 9998057480000000, 9998006820000000, 9997957940000000,
  9997910260000000, 9997863170000000, 9997818470000000, 9997774360000000, 9997732040000000, 9997690920000000,
  9997651580000000, 9997613430000000, 9997577070000000, 9997541900000000, 9997508530000000, 9997476940000000,
  9997446540000000, 9997418520000000, 9997391700000000, 9997366670000000, 9997343420000000, 9997321370000000,
  9997301700000000, 9997283820000000, 9997267720000000, 9997253420000000, 9997240900000000, 9997230170000000,
  9997221230000000, 9997214080000000, 9997209310000000, 9997206330000000, 9997205140000000, 9997205730000000,
  9997208120000000, 9997212890000000, 9997219440000000, 9997227790000000, 9997237920000000, 9997250440000000,
  9997264740000000, 9997280840000000, 9997298720000000, 9997318980000000, 9997341040000000, 9997364880000000,
  9997390510000000, 9997417930000000, 9997447130000000, 9997478720000000, 9997511510000000, 9997546670000000,
  9997583030000000, 9997621770000000, 9997661710000000, 9997704030000000, 9997747540000000, 9997792840000000,
  9997839930000000, 9997888210000000, 9997938280000000, 9997990130000000, 9998043180000000, 9998097420000000,
  9998154040000000, 9998211260000000, 9998269680000000, 9998329880000000, 9998391270000000, 9998453860000000,
  9998517630000000, 9998582600000000, 9998648760000000, 9998715520000000, 9998783470000000, 9998852610000000,
  9998922350000000, 9998993280000000, 9999064800000000, 9999136920000000, 9999209640000000, 9999282960000000,
  9999356870000000, 9999431370000000, 9999506470000000, 9999581580000000, 9999657270000000, 9999732970000000,
  9999809270000000, 9999885560000000, 9999961850000000, 10000038100000000, 10000114400000000, 10000190700000000,
  10000267000000000, 10000343300000000, 10000418400000000, 10000493500000000, 10000568600000000, 10000643700000000,
  10000717600000000, 10000790400000000, 10000863100000000, 10000935800000000, 10001007300000000, 10001077700000000,
  10001148000000000, 10001215900000000, 10001283900000000, 10001351800000000, 10001417400000000, 10001483000000000,
  10001546100000000, 10001609300000000, 10001670100000000, 10001730900000000, 10001789300000000, 10001846600000000,
  10001902600000000, 10001957400000000, 10002009900000000, 10002062300000000, 10002112400000000, 10002161300000000,
  10002207800000000, 10002253100000000, 10002297200000000, 10002338900000000, 10002379400000000, 10002417600000000,
  10002454500000000, 10002489100000000, 10002522500000000, 10002553500000000, 10002583300000000, 10002610700000000,
  10002635700000000, 10002659600000000, 10002682200000000, 10002701300000000, 10002720400000000, 10002735900000000,
  10002750200000000, 10002762100000000, 10002772800000000, 10002781200000000, 10002788300000000, 10002791900000000,
  10002795500000000, 10002795500000000, 10002794300000000, 10002791900000000, 10002785900000000, 10002780000000000,
  10002770400000000, 10002759700000000, 10002747800000000, 10002733500000000, 10002716800000000, 10002698900000000,
  10002678600000000, 10002657200000000, 10002634500000000, 10002609500000000, 10002582100000000, 10002553500000000,
  10002523700000000, 10002492700000000, 10002459300000000, 10002423500000000, 10002387800000000, 10002349600000000,
  10002309100000000, 10002268600000000, 10002225600000000, 10002182700000000, 10002137400000000, 10002090900000000,
  10002042100000000, 10001993200000000, 10001943100000000, 10001890700000000, 10001838200000000, 10001784600000000,
  10001729700000000, 10001673700000000, 10001616500000000, 10001558100000000, 10001498500000000, 10001438900000000,
  10001378100000000, 10001316100000000, 10001252900000000, 10001189700000000, 10001125300000000, 10001061000000000,
  10000995400000000, 10000929800000000, 10000863100000000, 10000796300000000, 10000728400000000, 10000660400000000,
  10000591300000000, 10000523300000000, 10000454200000000, 10000385000000000, 10000314700000000, 10000245600000000,
  10000175200000000, 10000104900000000, 10000034600000000, 9999964830000000, 9999895100000000, 9999824760000000,
  9999755020000000, 9999685290000000, 9999615550000000, 9999546410000000, 9999477270000000, 9999408130000000,
  9999339580000000, 9999271630000000, 9999204280000000, 9999136920000000, 9999070760000000, 9999004600000000,
  9998939040000000, 9998874660000000, 9998810290000000, 9998747110000000, 9998684530000000, 9998622540000000,
  9998561740000000, 9998501540000000, 9998442530000000, 9998384120000000, 9998326900000000, 9998270870000000,
  9998216030000000, 9998161790000000, 9998109340000000, 9998057480000000, 9998006820000000, 9997957940000000,
  9997910260000000, 9997863170000000, 9997818470000000, 9997774360000000, 9997732040000000, 9997690920000000,
  9997651580000000, 9997613430000000, 9997577070000000, 9997541900000000, 9997508530000000, 9997476940000000,
  9997446540000000, 9997418520000000, 9997391700000000, 9997366670000000, 9997343420000000, 9997321370000000,
  9997301700000000, 9997283820000000, 9997267720000000, 9997253420000000, 9997240900000000, 9997230170000000,
  9997221230000000, 9997214080000000, 9997209310000000, 9997206330000000, 9997205140000000, 9997205730000000,
  9997208120000000, 9997212890000000, 9997219440000000, 9997227790000000, 9997237920000000, 9997250440000000,
  9997264740000000, 9997280840000000, 9997298720000000, 9997318980000000, 9997341040000000, 9997364880000000,
  9997390510000000, 9997417930000000, 9997447130000000, 9997478720000000, 9997511510000000, 9997546670000000,
  9997583030000000, 9997621770000000, 9997661710000000, 9997704030000000, 9997747540000000, 9997792840000000,
  9997839930000000, 9997888210000000, 9997938280000000, 9997990130000000, 9998043180000000, 9998097420000000,
  9998154040000000, 9998211260000000, 9998269680000000, 9998329880000000, 9998391270000000, 9998453860000000,
  9998517630000000, 9998582600000000, 9998648760000000, 9998715520000000, 9998783470000000, 9998852610000000,
  9998922350000000, 9998993280000000, 9999064800000000, 9999136920000000, 9999209640000000, 9999282960000000,
  9999356870000000, 9999431370000000, 9999506470000000, 9999581580000000, 9999657270000000, 9999732970000000,
  9999809270000000, 9999885560000000, 9999961850000000, 10000038100000000, 10000114400000000, 10000190700000000,
  10000267000000000, 10000343300000000, 10000418400000000, 10000493500000000, 10000568600000000, 10000643700000000,
  10000717600000000, 10000790400000000, 10000863100000000, 10000935800000000, 10001007300000000, 10001077700000000,
  10001148000000000, 10001215900000000, 10001283900000000, 10001351800000000, 10001417400000000, 10001483000000000,
  10001546100000000, 10001609300000000, 10001670100000000, 10001730900000000, 10001789300000000, 10001846600000000,
  10001902600000000, 10001957400000000, 10002009900000000, 10002062300000000, 10002112400000000, 10002161300000000,
  10002207800000000, 10002253100000000, 10002297200000000, 10002338900000000, 10002379400000000, 10002417600000000,
  10002454500000000, 10002489100000000, 10002522500000000, 10002553500000000, 10002583300000000, 10002610700000000,
  10002635700000000, 10002659600000000, 10002682200000000, 10002701300000000, 10002720400000000, 10002735900000000,
  10002750200000000, 10002762100000000, 10002772800000000, 10002781200000000, 10002788300000000, 10002791900000000,
  10002795500000000, 10002795500000000, 10002794300000000, 10002791900000000, 10002785900000000, 10002780000000000,
  10002770400000000, 10002759700000000, 10002747800000000, 10002733500000000, 10002716800000000, 10002698900000000,
  10002678600000000, 10002657200000000, 10002634500000000, 10002609500000000, 10002582100000000, 10002553500000000,
  10002523700000000, 10002492700000000, 10002459300000000, 10002423500000000, 10002387800000000, 10002349600000000,
  10002309100000000, 10002268600000000, 10002225600000000, 10002182700000000, 10002137400000000, 10002090900000000,
  10002042100000000, 10001993200000000, 10001943100000000, 10001890700000000, 10001838200000000, 10001784600000000,
  10001729700000000, 10001673700000000, 10001616500000000, 10001558100000000, 10001498500000000, 10001438900000000,
  10001378100000000, 10001316100000000, 10001252900000000, 10001189700000000, 10001125300000000, 10001061000000000,
  10000995400000000, 10000929800000000, 10000863100000000, 10000796300000000, 10000728400000000, 10000660400000000,
  10000591300000000, 10000523300000000, 10000454200000000, 10000385000000000, 10000314700000000, 10000245600000000,
  10000175200000000, 10000104900000000, 10000034600000000, 9999964830000000, 9999895100000000, 9999824760000000,
  9999755020000000, 9999685290000000, 9999615550000000, 9999546410000000, 9999477270000000, 9999408130000000,
  9999339580000000, 9999271630000000, 9999204280000000, 9999136920000000, 9999070760000000, 9999004600000000,
  9998939040000000, 9998874660000000, 9998810290000000, 9998747110000000, 9998684530000000, 9998622540000000,
  9998561740000000, 9998501540000000, 9998442530000000, 9998384120000000, 9998326900000000, 9998270870000000,
  9998216030000000, 9998161790000000, 9998109340000000, 9998057480000000, 9998006820000000, 9997957940000000,
  9997910260000000, 9997863170000000, 9997818470000000, 9997774360000000, 9997732040000000, 9997690920000000,
  9997651580000000, 9997613430000000, 9997577070000000, 9997541900000000, 9997508530000000, 9997476940000000,
  9997446540000000, 9997418520000000, 9997391700000000, 9997366670000000, 9997343420000000, 9997321370000000,
  9997301700000000, 9997283820000000, 9997267720000000, 9997253420000000, 9997240900000000, 9997230170000000,
  9997221230000000, 9997214080000000, 9997209310000000, 9997206330000000, 9997205140000000, 9997205730000000,
  9997208120000000, 9997212890000000, 9997219440000000, 9997227790000000, 9997237920000000, 9997250440000000,
  9997264740000000, 9997280840000000, 9997298720000000, 9997318980000000, 9997341040000000, 9997364880000000,
  9997390510000000, 9997417930000000, 9997447130000000, 9997478720000000, 9997511510000000, 9997546670000000,
  9997583030000000, 9997621770000000, 9997661710000000, 9997704030000000, 9997747540000000, 9997792840000000,
  9997839930000000, 9997888210000000, 9997938280000000, 9997990130000000, 9998043180000000, 9998097420000000,
  9998154040000000, 9998211260000000, 9998269680000000, 9998329880000000, 9998391270000000, 9998453860000000,
  9998517630000000, 9998582600000000, 9998648760000000, 9998715520000000, 9998783470000000, 9998852610000000,
  9998922350000000, 9998993280000000, 9999064800000000, 9999136920000000, 9999209640000000, 9999282960000000,
  9999356870000000, 9999431370000000, 9999506470000000, 9999581580000000, 9999657270000000, 9999732970000000,
  9999809270000000, 9999885560000000, 9999961850000000, 10000038100000000, 10000113200000000, 10000188400000000,
  10000263500000000, 10000336200000000, 10000407700000000, 10000478000000000, 10000546000000000, 10000610400000000,
  10000671100000000, 10000727200000000, 10000777200000000, 10000821400000000, 10000857100000000, 10000883300000000,
  10000897600000000, 10000898800000000, 10000884500000000, 10000851200000000, 10000797500000000, 10000720000000000,
  10000613900000000, 10000476800000000, 10000302800000000, 10000089400000000, 9999828930000000, 9999516610000000,
  9999146460000000, 9998711350000000, 9998204110000000, 9997617010000000, 9996941090000000, 9996167420000000,
  9995286460000000, 9994286890000000, 9993158580000000, 9991888400000000, 9990464450000000, 9988873600000000,
  9987100360000000, 9985130430000000, 9982947110000000, 9980534910000000, 9977875350000000, 9974949960000000,
  9971738460000000, 9968221780000000, 9964377280000000, 9960182910000000, 9955615400000000, 9950649740000000,
  9945260880000000, 9939421420000000, 9933104520000000, 9926280380000000, 9918919210000000, 9910990000000000,
  9902459980000000, 9893295170000000, 9883461590000000, 9872922900000000, 9861641530000000, 9849579330000000,
  9836696390000000, 9822951560000000, 9808303120000000, 9792706970000000, 9776120190000000, 9758496280000000,
  9739788170000000, 9719949960000000, 9698931570000000, 9676685330000000, 9653159380000000, 9628304840000000,
  9602069850000000, 9574401970000000, 9545251130000000, 9514563680000000, 9482288360000000, 9448373910000000,
  9412767290000000, 9375419020000000, 9336278440000000, 9295296070000000, 9252424240000000, 9207614660000000,
  9160823820000000, 9112006430000000, 9061121340000000, 9008128640000000, 8952991960000000, 8895675540000000,
  8836147190000000, 8774378300000000, 8710343240000000, 8644018770000000, 8575385210000000, 8504428270000000,
  8431135420000000, 8355498910000000, 8277515170000000, 8197184210000000, 8114511370000000, 8029506210000000,
  7942181830000000, 7852556710000000, 7760653500000000, 7666500810000000, 7570130230000000, 7471579310000000,
  7370889780000000, 7268108730000000, 7163286810000000, 7056481240000000, 6947751640000000, 6837163570000000,
  6724787950000000, 6610698100000000, 6494973300000000, 6377695800000000, 6258953210000000, 6138836740000000,
  6017440560000000, 5894863610000000, 5771207810000000, 5646578670000000, 5521084070000000, 5394835470000000,
  5267946720000000, 5140534040000000, 5012716650000000, 4884614350000000, 4756349920000000, 4628046150000000,
  4499828220000000, 4371821580000000, 4244151710000000, 4116945270000000, 3990327720000000, 3864424530000000,
  3739360870000000, 3615259530000000, 3492242690000000, 3370430470000000, 3249940870000000, 3130888940000000,
  3013387320000000, 2897544500000000, 2783466580000000, 2671254580000000, 2561005950000000, 2452813240000000,
  2346764360000000, 2242941560000000, 2141422030000000, 2042277160000000, 1945572350000000, 1851366910000000,
  1759713890000000, 1670659780000000, 1584244670000000, 1500501930000000, 1419458090000000, 1341133120000000,
  1265540120000000, 1192685810000000, 1122570040000000, 1055186320000000, 990521908000000, 928557739000000,
  869268849000000, 812624842000000, 758589506000000, 707121640000000, 658175275000000, 611699894000000,
  567640625000000, 525939018000000, 486532971000000, 449357443000000, 414344519000000, 381424055000000,
  350523964000000, 321570449000000, 294488575000000, 269202497000000, 245635863000000, 223712083000000,
  203354694000000, 184487645000000, 167035554000000, 150924018000000, 136079816000000, 122431125000000,
  109907771000000, 98441336300000, 87965410200000, 78415619200000, 69729853400000, 61848294000000, 54713515600000,
  48270556100000, 42466945000000, 37252756300000, 32580583400000, 28405571400000, 24685380000000, 21380160500000,
  18452520000000, 15867467700000, 13592350300000, 11596796100000, 9852630320000, 8333798030000, 7016281600000,
  5878006920000, 4898755000000, 4060066130000, 3345142180000, 2738754270000, 2227142540000, 1797923760000,
  1439995390000, 1143443950000, 899455481000, 700227974000, 538887325000, 409407221000, 306531692000, 225702297000,
  162988836000, 115024377000, 78944358400, 52329833100, 33154856300, 19737901800, 10697181100, 4909053930, 1462097570]

/-- `lc3_fft_twiddles_bf3`, src/tables.c:155-156: size, power of ten and values. -/
def bf3Table : Nat → Option (Nat × Nat × List Int)
  | 0 => some (15 / 3, 8, twBf3_15)
  | 1 => some (45 / 3, 9, twBf3_45)
  | _ => none

/-- `lc3_fft_twiddles_bf2`, src/tables.c:609-615; a table not given is `NULL`. -/
def bf2Table : Nat → Nat → Option (Nat × Nat × List Int)
  | 0, 0 => some (10 / 2, 8, twBf2_10)
  | 0, 1 => some (30 / 2, 8, twBf2_30)
  | 0, 2 => some (90 / 2, 9, twBf2_90)
  | 1, 0 => some (20 / 2, 23, twBf2_20)
  | 1, 1 => some (60 / 2, 23, twBf2_60)
  | 1, 2 => some (180 / 2, 23, twBf2_180)
  | 2, 0 => some (40 / 2, 23, twBf2_40)
  | 2, 1 => some (120 / 2, 23, twBf2_120)
  | 3, 0 => some (80 / 2, 23, twBf2_80)
  | 3, 1 => some (240 / 2, 23, twBf2_240)
  | 4, 0 => some (160 / 2, 23, twBf2_160)
  | 4, 1 => some (480 / 2, 23, twBf2_480)
  | _, _ => none

/-- `lc3_mdct_rot`, src/tables.c:1448-1468. -/
def rotTable : Dt → Srate → Option (Nat × Nat × List Int)
  | .m2_5, .k8 => some (40 / 4, 9, twRot_40)
  | .m2_5, .k16 => some (80 / 4, 10, twRot_80)
  | .m2_5, .k24 => some (120 / 4, 9, twRot_120)
  | .m2_5, .k32 => some (160 / 4, 10, twRot_160)
  | .m2_5, .k48 => some (240 / 4, 10, twRot_240)
  | .m2_5, .k48hr => some (240 / 4, 10, twRot_240)
  | .m2_5, .k96hr => some (480 / 4, 11, twRot_480)
  | .m5, .k8 => some (80 / 4, 10, twRot_80)
  | .m5, .k16 => some (160 / 4, 10, twRot_160)
  | .m5, .k24 => some (240 / 4, 10, twRot_240)
  | .m5, .k32 => some (320 / 4, 10, twRot_320)
  | .m5, .k48 => some (480 / 4, 11, twRot_480)
  | .m5, .k48hr => some (480 / 4, 11, twRot_480)
  | .m5, .k96hr => some (960 / 4, 11, twRot_960)
  | .m7_5, .k8 => some (120 / 4, 9, twRot_120)
  | .m7_5, .k16 => some (240 / 4, 10, twRot_240)
  | .m7_5, .k24 => some (360 / 4, 11, twRot_360)
  | .m7_5, .k32 => some (480 / 4, 11, twRot_480)
  | .m7_5, .k48 => some (720 / 4, 11, twRot_720)
  | .m10, .k8 => some (160 / 4, 10, twRot_160)
  | .m10, .k16 => some (320 / 4, 10, twRot_320)
  | .m10, .k24 => some (480 / 4, 11, twRot_480)
  | .m10, .k32 => some (640 / 4, 11, twRot_640)
  | .m10, .k48 => some (960 / 4, 11, twRot_960)
  | .m10, .k48hr => some (960 / 4, 11, twRot_960)
  | .m10, .k96hr => some (1920 / 4, 12, twRot_1920)
  | _, _ => none

/-- `lc3_mdct_win`, src/tables.c:4040-4069. -/
def winTable : Dt → Srate → Option (Nat × List Int)
  | .m2_5, .k8 => some (10, win_2m5_8k)
  | .m2_5, .k16 => some (11, win_2m5_16k)
  | .m2_5, .k24 => some (11, win_2m5_24k)
  | .m2_5, .k32 => some (11, win_2m5_32k)
  | .m2_5, .k48 => some (11, win_2m5_48k)
  | .m2_5, .k48hr => some (15, win_2m5_48k_hr)
  | .m2_5, .k96hr => some (15, win_2m5_96k_hr)
  | .m5, .k8 => some (12, win_5m_8k)
  | .m5, .k16 => some (12, win_5m_16k)
  | .m5, .k24 => some (12, win_5m_24k)
  | .m5, .k32 => some (12, win_5m_32k)
  | .m5, .k48 => some (12, win_5m_48k)
  | .m5, .k48hr => some (16, win_5m_48k_hr)
  | .m5, .k96hr => some (16, win_5m_96k_hr)
  | .m7_5, .k8 => some (11, win_7m5_8k)
  | .m7_5, .k16 => some (11, win_7m5_16k)
  | .m7_5, .k24 => some (11, win_7m5_24k)
  | .m7_5, .k32 => some (11, win_7m5_32k)
  | .m7_5, .k48 => some (11, win_7m5_48k)
  | .m10, .k8 => some (12, win_10m_8k)
  | .m10, .k16 => some (12, win_10m_16k)
  | .m10, .k24 => some (12, win_10m_24k)
  | .m10, .k32 => some (12, win_10m_32k)
  | .m10, .k48 => some (12, win_10m_48k)
  | .m10, .k48hr => some (16, win_10m_48k_hr)
  | .m10, .k96hr => some (16, win_10m_96k_hr)
  | _, _ => none

/-- Values of a table in an arithmetic. -/
def scaled {R : Type} (A : Arith R) (e : Nat) (l : List Int) : List R := l.map fun m => A.ofRat (dec m e)

/-- The tables of the transforms in an arithmetic; the constants of `fft_5` are those of src/mdct.c:38-42. -/
def mdctTables {R : Type} (A : Arith R) : MdctTables R where
  cos1 := A.ofRat (dec 3090169944 10)
  cos2 := A.ofRat (dec (-8090169944) 10)
  sin1 := A.ofRat (dec (-9510565163) 10)
  sin2 := A.ofRat (dec (-5877852523) 10)
  bf3 i := (bf3Table i).map fun t => (t.1, scaled A t.2.1 t.2.2)
  bf2 i j := (bf2Table i j).map fun t => (t.1, scaled A t.2.1 t.2.2)
  rot dt sr := (rotTable dt sr).map fun t => (t.1, scaled A t.2.1 t.2.2)
  win dt sr := (winTable dt sr).map fun t => scaled A t.1 t.2

end LC3
