import Verif.Proofs.Crc32Search

/-!
Discrete logarithms in the orbit of the CRC shift register: after how many shifts of the register started with 1 it shows a
given byte, or a given change of one Base64 digit of the checksum.  The numbers were found by a search outside Lean; that they
are right is computed by the kernel (`logs_right`).
-/

namespace Verif.Crc32
open Spec

/-- the number of shifts after which the register, started with 1, shows the byte 1, 2, …, 255 -/
def byteLogs : List Nat := [
  0, 4294967294, 376820507, 4294967293, 753641014, 376820506, 1523343493, 4294967292, 1900164000, 753641013, 1492908457, 376820505,
  1688530300, 1523343492, 1130461521, 4294967291, 1507282028, 1900163999, 3666143517, 753641012, 3046686986, 1492908456, 2065350807, 376820504,
  3317045568, 1688530299, 2276984507, 1523343491, 1869728964, 1130461520, 868840958, 4294967290, 1245661465, 1507282027, 3211873793, 1900163998,
  4098525841, 3666143516, 2246549471, 753641011, 1150455593, 3046686985, 3693866075, 1492908455, 2653805014, 2065350806, 558406387, 376820503,
  3016251950, 3317045567, 1884102535, 1688530298, 4042964024, 2276984506, 232593653, 1523343490, 2442171314, 1869728963, 2849180821, 1130461519,
  2901393702, 868840957, 3423507493, 4294967289, 3800328000, 1245661464, 3123467898, 1507282026, 2985816914, 3211873792, 3278214209, 1900163997,
  4255669993, 4098525840, 2818991821, 3666143515, 3226001328, 2246549470, 545421766, 753641010, 3377060600, 1150455592, 3393072457, 3046686984,
  2260923042, 3693866074, 3263237198, 1492908454, 609414160, 2653805013, 2143895443, 2065350805, 2392184451, 558406386, 124817236, 376820502,
  3734723938, 3016251949, 1622481972, 3317045566, 3588694300, 1884102534, 493182144, 1688530297, 2623369978, 4042964023, 275063184, 2276984505,
  627821033, 232593652, 180379053, 1523343489, 935226894, 2442171313, 1188437345, 1869728962, 502715684, 2849180820, 3030625521, 1130461518,
  894519715, 2901393701, 1527276100, 868840956, 4070686582, 3423507492, 3181438757, 4294967288, 3558259264, 3800327999, 1986743239, 1245661463,
  1755937146, 3123467897, 152539794, 1507282025, 3216462894, 2985816913, 1271340222, 3211873791, 1904096607, 3278214208, 1682520254, 1900163996,
  952619918, 4255669992, 1312047401, 4098525839, 1565257852, 2818991820, 244628148, 3666143514, 3407446028, 3226001327, 2557371258, 2246549469,
  3273471230, 545421765, 879536191, 753641009, 77557019, 3377060599, 4111544445, 1150455591, 1999302479, 3393072456, 3844547022, 3046686983,
  870002651, 2260923041, 1006366331, 3693866073, 864084679, 3263237197, 3965514807, 1492908453, 557199560, 609414159, 129769900, 2653805012,
  710608573, 2143895442, 1004641540, 2065350804, 1839593136, 2392184450, 3000190485, 558406385, 651883691, 124817235, 3766588185, 376820501,
  570527426, 3734723937, 4177148507, 3016251948, 3500288405, 1622481971, 1059706522, 3317045565, 3655034716, 3588694299, 405236439, 1884102533,
  2081749880, 493182143, 3362637421, 1688530296, 922242273, 2623369977, 128318857, 4042964022, 3028205210, 275063183, 3602821835, 2276984504,
  2361749415, 627821032, 337523205, 232593651, 3195812328, 180379052, 2673799086, 1523343488, 501637743, 935226893, 514986730, 2442171312,
  3457229922, 1188437344, 2769004958, 1869728961, 440249991, 502715683, 986234667, 2849180819, 2520715950, 3030625520, 916127135, 1130461517,
  3940534380, 894519714, 3753881107, 2901393700, 3769892964, 1527276099, 2595164193, 868840955, 3640057705, 4070686581, 1326902039, 3423507491,
  3756671979, 3181438756, 2637743549]

/-- the changes of a checksum that one Base64 digit can make: for each of the six digits, the combinations of its bits -/
def deltas : List Nat := [
  4, 8, 12, 16, 20, 24, 28, 32, 36, 40, 44, 48,
  52, 56, 60, 64, 68, 72, 76, 80, 84, 88, 92, 96,
  100, 104, 108, 112, 116, 120, 124, 128, 132, 136, 140, 144,
  148, 152, 156, 160, 164, 168, 172, 176, 180, 184, 188, 192,
  196, 200, 204, 208, 212, 216, 220, 224, 228, 232, 236, 240,
  244, 248, 252, 1, 2, 3, 4096, 4097, 4098, 4099, 8192, 8193,
  8194, 8195, 12288, 12289, 12290, 12291, 16384, 16385, 16386, 16387, 20480, 20481,
  20482, 20483, 24576, 24577, 24578, 24579, 28672, 28673, 28674, 28675, 32768, 32769,
  32770, 32771, 36864, 36865, 36866, 36867, 40960, 40961, 40962, 40963, 45056, 45057,
  45058, 45059, 49152, 49153, 49154, 49155, 53248, 53249, 53250, 53251, 57344, 57345,
  57346, 57347, 61440, 61441, 61442, 61443, 256, 512, 768, 1024, 1280, 1536,
  1792, 2048, 2304, 2560, 2816, 3072, 3328, 3584, 3840, 4194304, 4194560, 4194816,
  4195072, 4195328, 4195584, 4195840, 4196096, 4196352, 4196608, 4196864, 4197120, 4197376, 4197632, 4197888,
  4198144, 8388608, 8388864, 8389120, 8389376, 8389632, 8389888, 8390144, 8390400, 8390656, 8390912, 8391168,
  8391424, 8391680, 8391936, 8392192, 8392448, 12582912, 12583168, 12583424, 12583680, 12583936, 12584192, 12584448,
  12584704, 12584960, 12585216, 12585472, 12585728, 12585984, 12586240, 12586496, 12586752, 65536, 131072, 196608,
  262144, 327680, 393216, 458752, 524288, 589824, 655360, 720896, 786432, 851968, 917504, 983040,
  1048576, 1114112, 1179648, 1245184, 1310720, 1376256, 1441792, 1507328, 1572864, 1638400, 1703936, 1769472,
  1835008, 1900544, 1966080, 2031616, 2097152, 2162688, 2228224, 2293760, 2359296, 2424832, 2490368, 2555904,
  2621440, 2686976, 2752512, 2818048, 2883584, 2949120, 3014656, 3080192, 3145728, 3211264, 3276800, 3342336,
  3407872, 3473408, 3538944, 3604480, 3670016, 3735552, 3801088, 3866624, 3932160, 3997696, 4063232, 4128768,
  67108864, 134217728, 201326592, 268435456, 335544320, 402653184, 469762048, 536870912, 603979776, 671088640, 738197504, 805306368,
  872415232, 939524096, 1006632960, 1073741824, 1140850688, 1207959552, 1275068416, 1342177280, 1409286144, 1476395008, 1543503872, 1610612736,
  1677721600, 1744830464, 1811939328, 1879048192, 1946157056, 2013265920, 2080374784, 2147483648, 2214592512, 2281701376, 2348810240, 2415919104,
  2483027968, 2550136832, 2617245696, 2684354560, 2751463424, 2818572288, 2885681152, 2952790016, 3019898880, 3087007744, 3154116608, 3221225472,
  3288334336, 3355443200, 3422552064, 3489660928, 3556769792, 3623878656, 3690987520, 3758096384, 3825205248, 3892314112, 3959422976, 4026531840,
  4093640704, 4160749568, 4227858432, 16777216, 33554432, 50331648]

/-- the same for these changes -/
def deltaLogs : List Nat := [
  4294967293, 4294967292, 376820505, 4294967291, 753641012, 376820504, 1523343491, 4294967290, 1900163998, 753641011, 1492908455, 376820503,
  1688530298, 1523343490, 1130461519, 4294967289, 1507282026, 1900163997, 3666143515, 753641010, 3046686984, 1492908454, 2065350805, 376820502,
  3317045566, 1688530297, 2276984505, 1523343489, 1869728962, 1130461518, 868840956, 4294967288, 1245661463, 1507282025, 3211873791, 1900163996,
  4098525839, 3666143514, 2246549469, 753641009, 1150455591, 3046686983, 3693866073, 1492908453, 2653805012, 2065350804, 558406385, 376820501,
  3016251948, 3317045565, 1884102533, 1688530296, 4042964022, 2276984504, 232593651, 1523343488, 2442171312, 1869728961, 2849180819, 1130461517,
  2901393700, 868840955, 3423507491, 0, 4294967294, 376820507, 4294967283, 3305688705, 363123225, 1269014960, 4294967282, 1660431248,
  3305688704, 4122888229, 376820495, 3269364751, 3765478380, 3682509212, 4294967281, 2821551233, 1660431247, 1836061713, 753641002, 1141054852,
  2773884139, 3646185258, 376820494, 876481766, 3269364750, 2037251755, 1523343481, 682096509, 551974838, 3368115746, 4294967280, 1162259453,
  2821551232, 3689218687, 1900163988, 2151948682, 1581287229, 1058917016, 753641001, 3665716406, 1141054851, 1253302273, 1492908445, 1281759708,
  1732899802, 348793917, 376820493, 3456436054, 876481765, 3198371740, 1688530288, 3011960679, 4006890123, 3485420015, 1523343480, 1812791856,
  682096508, 2943155941, 1130461509, 3125948958, 342249097, 1517875359, 4294967287, 4294967286, 376820499, 4294967285, 753641006, 376820498,
  1523343485, 4294967284, 1900163992, 753641005, 1492908449, 376820497, 1688530292, 1523343484, 1130461513, 4294967273, 2821551225, 1660431239,
  1836061705, 3305688695, 3973486470, 4122888220, 2324147934, 363123215, 1312490144, 3601478684, 1564835873, 1269014950, 4098043188, 2783745379,
  890196988, 4294967272, 1162259445, 2821551224, 3689218679, 1660431238, 1483851919, 1836061704, 1681959977, 3305688694, 421881050, 3973486469,
  3238850478, 4122888219, 4014611117, 2324147933, 4023241251, 376820485, 3456436046, 876481757, 3198371732, 3269364741, 2212882212, 2037251746,
  1594085687, 3765478370, 2700968441, 204741432, 266285531, 3682509202, 3365183019, 1290609164, 55339682, 4294967279, 4294967278, 376820491,
  4294967277, 753640998, 376820490, 1523343477, 4294967276, 1900163984, 753640997, 1492908441, 376820489, 1688530284, 1523343476, 1130461505,
  4294967275, 1507282012, 1900163983, 3666143501, 753640996, 3046686970, 1492908440, 2065350791, 376820488, 3317045552, 1688530283, 2276984491,
  1523343475, 1869728948, 1130461504, 868840942, 4294967274, 1245661449, 1507282011, 3211873777, 1900163982, 4098525825, 3666143500, 2246549455,
  753640995, 1150455577, 3046686969, 3693866059, 1492908439, 2653804998, 2065350790, 558406371, 376820487, 3016251934, 3317045551, 1884102519,
  1688530282, 4042964008, 2276984490, 232593637, 1523343474, 2442171298, 1869728947, 2849180805, 1130461503, 2901393686, 868840941, 3423507477,
  4294967269, 4294967268, 376820481, 4294967267, 753640988, 376820480, 1523343467, 4294967266, 1900163974, 753640987, 1492908431, 376820479,
  1688530274, 1523343466, 1130461495, 4294967265, 1507282002, 1900163973, 3666143491, 753640986, 3046686960, 1492908430, 2065350781, 376820478,
  3317045542, 1688530273, 2276984481, 1523343465, 1869728938, 1130461494, 868840932, 4294967264, 1245661439, 1507282001, 3211873767, 1900163972,
  4098525815, 3666143490, 2246549445, 753640985, 1150455567, 3046686959, 3693866049, 1492908429, 2653804988, 2065350780, 558406361, 376820477,
  3016251924, 3317045541, 1884102509, 1688530272, 4042963998, 2276984480, 232593627, 1523343464, 2442171288, 1869728937, 2849180795, 1130461493,
  2901393676, 868840931, 3423507467, 4294967271, 4294967270, 376820483]

/-- all registers started with 1 are advanced together: pairs of shifts still to do and state -/
def runAll : Nat → List Nat → List (Nat × Nat) → List (Nat × Nat)
  | 0, _, l => l
  | f + 1, cols, l => runAll f (cols.map (app cols)) (l.map fun x => (x.1 / 2, if x.1 % 2 = 1 then app cols x.2 else x.2))

/-- how many bytes further, modulo the period -/
def gap (t1 t2 : Nat) : Nat := (t2 + 4294967295 - t1) * 536870912 % 4294967295

def checkGaps (lim : Nat) (T1 T2 : List Nat) : Bool := T1.all fun t1 => T2.all fun t2 => Nat.beq (gap t1 t2) 0 || Nat.ble lim (gap t1 t2)

set_option maxRecDepth 100000 in
theorem logs_right : (runAll 32 (colsOf (crcBits 1)) ((byteLogs ++ deltaLogs).map fun t => (t, 1))).map Prod.snd =
    (List.range 255).map (· + 1) ++ deltas := by decide +kernel

set_option maxRecDepth 100000 in
theorem gaps_bytes : checkGaps 145212 byteLogs byteLogs = true := by decide +kernel

set_option maxRecDepth 100000 in
theorem gaps_deltas : checkGaps 765943 byteLogs deltaLogs = true := by decide +kernel

end Verif.Crc32
