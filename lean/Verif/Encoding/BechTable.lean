/-!
# Residue table of the Bech32 code (generated by tools/gen_bechtab.py)

Data only: `BechErrors.lean` checks every entry.
-/
namespace Torsion

inductive KTree where
  | l
  | n (a : KTree) (key val : Nat) (b : KTree)

def bechCol1 : List Nat := [32, 64, 96, 128, 160, 192, 224, 256, 288, 320, 352, 384, 416, 448,
  480, 512, 544, 576, 608, 640, 672, 704, 736, 768, 800, 832, 864, 896, 928, 960, 992]

def bechCol2 : List Nat := [1024, 2048, 3072, 4096, 5120, 6144, 7168, 8192, 9216, 10240, 11264,
  12288, 13312, 14336, 15360, 16384, 17408, 18432, 19456, 20480, 21504, 22528, 23552, 24576,
  25600, 26624, 27648, 28672, 29696, 30720, 31744]

def bechCol3 : List Nat := [32768, 65536, 98304, 131072, 163840, 196608, 229376, 262144, 294912,
  327680, 360448, 393216, 425984, 458752, 491520, 524288, 557056, 589824, 622592, 655360, 688128,
  720896, 753664, 786432, 819200, 851968, 884736, 917504, 950272, 983040, 1015808]

def bechCol4 : List Nat := [1048576, 2097152, 3145728, 4194304, 5242880, 6291456, 7340032,
  8388608, 9437184, 10485760, 11534336, 12582912, 13631488, 14680064, 15728640, 16777216,
  17825792, 18874368, 19922944, 20971520, 22020096, 23068672, 24117248, 25165824, 26214400,
  27262976, 28311552, 29360128, 30408704, 31457280, 32505856]

def bechCol5 : List Nat := [33554432, 67108864, 100663296, 134217728, 167772160, 201326592,
  234881024, 268435456, 301989888, 335544320, 369098752, 402653184, 436207616, 469762048,
  503316480, 536870912, 570425344, 603979776, 637534208, 671088640, 704643072, 738197504,
  771751936, 805306368, 838860800, 872415232, 905969664, 939524096, 973078528, 1006632960,
  1040187392]

def bechCol6 : List Nat := [996825010, 642813549, 490396127, 513874426, 634080840, 955357079,
  60538917, 1027748829, 103310447, 454213040, 544795138, 602090023, 411663765, 95659082,
  1054471160, 705979059, 293483777, 205843678, 925809516, 884308809, 266284283, 317060388,
  697279126, 391532910, 742131420, 822533891, 174885041, 167200916, 849157926, 799524601,
  349016395]

def bechCol7 : List Nat := [534243686, 1027569356, 585670570, 721079480, 892151262, 398834292,
  135418642, 132234585, 406213695, 987679637, 621355763, 756773345, 852269191, 270796589,
  267644491, 223574683, 310678525, 812387415, 800843057, 665433635, 947806021, 446087407,
  88156553, 179488706, 358952612, 932032782, 677009512, 541592442, 1067442716, 494370230,
  44078288]

def bechCol8 : List Nat := [69525304, 139009913, 208519233, 277265403, 346186947, 416261250,
  485194682, 554529535, 623488455, 692350342, 761311934, 831244548, 900666940, 969070205,
  1038485829, 312394999, 381295567, 450354062, 519242934, 35159820, 104636468, 173105269,
  242597709, 865318408, 934766896, 1004185969, 1073641033, 588582387, 657576651, 727454346,
  796446130]

def bechCol9 : List Nat := [583756141, 394458842, 894017463, 764759229, 257828304, 974633575,
  417125130, 196754771, 695292990, 473484169, 1056154340, 640643566, 82057347, 833455924,
  325512793, 368114319, 926651362, 41028693, 549020984, 946189874, 447668063, 803684584,
  220998021, 508217308, 1015131825, 164114694, 721639531, 870288225, 286581260, 610106811,
  110499030]

def bechCol10 : List Nat := [135469217, 270938434, 406137315, 541876868, 677345829, 812274630,
  947473255, 311223336, 446692489, 44750186, 179949003, 851478188, 986947085, 585545710,
  720744271, 621669456, 757003505, 892067090, 1027130803, 88182484, 223516277, 359120790,
  494184247, 931203192, 1066537177, 665270586, 800334235, 399338236, 534671965, 132864958,
  267928351]

def bechCol11 : List Nat := [482479578, 964959133, 625350215, 597176883, 1062879209, 438053294,
  115221620, 397730159, 192343221, 774961906, 854783784, 875352924, 686743174, 229165249,
  292209947, 771319518, 825977604, 343768387, 146763929, 241259757, 312695095, 937774960,
  723993258, 978159537, 646941291, 63544364, 520851958, 433436034, 85440600, 542223903,
  1016308677]

def bechCol12 : List Nat := [502406922, 963918644, 612770878, 578319201, 1066036331, 453789781,
  117331807, 384092130, 186046696, 798031062, 845341660, 882685059, 695118729, 233344951,
  270176445, 768159460, 809185774, 347936208, 156175066, 263282053, 306397839, 918906545,
  725055931, 992864518, 652211724, 39440946, 531352888, 425040487, 78087533, 539074899,
  1037287001]

def bechCol13 : List Nat := [1005602058, 661663252, 478178078, 510679329, 629152811, 956331829,
  49295935, 1021318722, 118510408, 462436438, 543194460, 579882851, 425724521, 98591095,
  1041245309, 734013860, 271609006, 212862896, 926958266, 900755589, 239089039, 314597009,
  691018651, 387989478, 751860460, 810553842, 195056888, 156264135, 849355725, 773867731,
  365956569]

def bechCol14 : List Nat := [211140198, 422279660, 364824458, 819124184, 1011313086, 704228916,
  627839058, 866455225, 1060155615, 713979733, 639355187, 58186081, 266495751, 442278029,
  382279403, 937039995, 995075613, 787571095, 577036273, 118017955, 194867653, 505656911,
  313919529, 75437762, 149596324, 492072750, 297914696, 883802394, 943226748, 763803894,
  554894992]

def bechCol15 : List Nat := [709253975, 109844391, 751455472, 218933870, 659222841, 192986569,
  566683294, 412996092, 853248683, 504481371, 878157068, 361855890, 1071063237, 320695349,
  962279266, 825198545, 459922566, 933466230, 501599009, 1008938431, 375748328, 984562200,
  283730255, 699553325, 66325882, 792609162, 91757277, 616496195, 251176724, 573762532, 141865139]

def bechCol16 : List Nat := [118769179, 213396799, 195848996, 426039895, 510696524, 366802792,
  315142515, 811144615, 927814588, 1021393048, 1005944451, 691916784, 774474219, 629531343,
  579970260, 849783630, 900918613, 1042187889, 957005930, 734163225, 752236290, 662330406,
  544086589, 50314985, 99350770, 239571926, 156489165, 463168702, 479142565, 388188545, 272043930]

def bechCol17 : List Nat := [1068636863, 804532343, 273033928, 259547335, 818575992, 546066608,
  524175887, 477422990, 600244017, 864081401, 204656454, 319587657, 750690294, 1022932286,
  55226241, 954822428, 123434403, 387800939, 682575316, 932253659, 136516964, 409288620,
  668411155, 614304402, 456101933, 191478501, 886808666, 736488021, 341307626, 68278818,
  1000587421]

def bechCol18 : List Nat := [579782315, 386509942, 898067165, 748148933, 236527214, 1000240307,
  420524568, 187635082, 698471201, 472300028, 1051230039, 666422607, 87428068, 816931129,
  306161554, 349874964, 911502783, 64161634, 559792585, 944600017, 449033594, 793042855,
  231348492, 536198814, 1031501877, 150737640, 712168515, 862086747, 300720368, 611043885,
  115674246]

def bechCol19 : List Nat := [10936417, 21849282, 32212131, 2026884, 12062181, 22251846, 32860455,
  2752264, 9379689, 23370698, 29522859, 3609228, 9564909, 24802894, 31233583, 4710192, 14761809,
  17480690, 28072851, 5845684, 16765653, 18110070, 28489239, 7217208, 13156441, 19088634,
  25535643, 7392700, 14036445, 20818302, 26954015]

def bechCol20 : List Nat := [349965344, 699177024, 1030788192, 64860288, 385989792, 712059072,
  1051534560, 88072448, 300150048, 747862336, 944731488, 115495296, 306077088, 793692608,
  999474656, 150726144, 472377888, 559382080, 898331232, 187061888, 536500896, 579522240,
  911655648, 230950656, 421006112, 610836288, 817140576, 236566400, 449166240, 666185664,
  862528480]

def bechCol21 : List Nat := [9648560, 19297097, 28658425, 14436274, 5209602, 33174779, 23661899,
  28094061, 20944861, 9100580, 1696916, 24177119, 31707247, 5675670, 12952358, 31316474, 21946442,
  16493235, 6853379, 16883272, 26388472, 2616577, 11850929, 7436183, 14831143, 22480094, 29637998,
  11350053, 4065685, 25903980, 18381532]

def bechCol22 : List Nat := [308753920, 617507104, 917069600, 461960768, 166707264, 1061592928,
  757180768, 899009952, 670235552, 291218560, 54301312, 773667808, 1014631904, 181621440,
  414475456, 1002127168, 702286144, 527783520, 219308128, 540264704, 844431104, 83730464,
  379229728, 237957856, 474596576, 719363008, 948415936, 363201696, 130101920, 828927360,
  588209024]

def bechCol23 : List Nat := [181314671, 361351390, 524774577, 697808277, 593039866, 1008631115,
  919656740, 62876419, 158453612, 372679645, 486016946, 707321494, 551975673, 1067521608,
  896512551, 100333350, 255087433, 275988472, 448633751, 745358003, 648275676, 971278957,
  858402306, 105225253, 210450506, 332158203, 419623060, 802302384, 622628319, 979100014,
  815088897]

def bechCol24 : List Nat := [1008714664, 707503728, 372532696, 105105897, 979110465, 745041817,
  276278321, 210188242, 815330426, 648843682, 447959562, 180682299, 920337811, 552556619,
  485530595, 420375213, 621914373, 858115293, 255463285, 525181764, 592601324, 895878452,
  158975644, 361323903, 697736919, 1067645711, 62732455, 332043414, 802510654, 971059942,
  100593998]

def bechCol25 : List Nat := [744469497, 179036923, 653545730, 356771071, 958158598, 535299588,
  867677693, 672624087, 71884334, 582782764, 249773269, 1028950312, 285948625, 939486163,
  463525930, 36601735, 779209854, 142974332, 618278533, 393059192, 993142913, 499546499,
  832162426, 708383312, 107389353, 546500779, 214778706, 1065023151, 321209686, 902894676,
  428779437]

def bechCol26 : List Nat := [420710916, 817303848, 698653484, 862855760, 712878164, 64566136,
  449493372, 911786409, 793463725, 116379777, 536631941, 87483385, 472214013, 897708753,
  747796693, 1051043666, 666250582, 236107386, 385956990, 231441666, 349703942, 1031574570,
  611261998, 150824699, 300870911, 944404435, 559545815, 999507115, 578866863, 186930563,
  305651591]

def bechCol27 : List Nat := [26372775, 28603502, 2498249, 33049820, 6956667, 4995250, 31347221,
  24427921, 15128374, 12634623, 22192984, 9236813, 18783210, 20481315, 11202436, 7961355,
  32182700, 30216037, 6251970, 25245655, 1269104, 3490745, 27732254, 17680026, 10464317, 12169972,
  19650643, 16091718, 23584993, 21102120, 13866127]

def bechCol28 : List Nat := [843928800, 915312064, 79943968, 1057594240, 222613344, 159848000,
  1003111072, 781693472, 484107968, 404307936, 710175488, 295578016, 601062720, 655402080,
  358477952, 254763360, 1029846400, 966913184, 200063040, 807860960, 40611328, 111703840,
  887432128, 565760832, 334858144, 389439104, 628820576, 514934976, 754719776, 675267840,
  443716064]

def bechCol29 : List Nat := [630627036, 465383601, 1043049069, 905896267, 275282839, 776196602,
  198527782, 997844630, 519011402, 549770791, 89279739, 243730397, 722574593, 356136812,
  816623024, 645393445, 65107705, 1036704916, 408700488, 327748974, 908040114, 137641439,
  765634307, 487459507, 949522543, 112409090, 589668574, 686877688, 224817444, 860740425,
  383467925]

def bechCol30 : List Nat := [1050130270, 791636917, 297327851, 249230947, 810369341, 569744854,
  526527112, 497143270, 590772920, 848209491, 202969357, 326843269, 770477275, 1012158512,
  46393198, 970145740, 121931922, 385635449, 678159143, 923388335, 161382129, 405185050,
  649139524, 611512874, 451233140, 190683551, 902442689, 715654217, 339718935, 92762108,
  990959778]

def bechCol31 : List Nat := [104561291, 207803446, 173649597, 415566917, 519993038, 346544243,
  312255224, 831133834, 934371841, 1038666940, 1003730487, 693048527, 796159556, 623755513,
  588692082, 865120532, 900451231, 1072850210, 969482153, 727039313, 762234842, 657942887,
  554439660, 35301790, 69325589, 242777512, 138610467, 450864603, 484761424, 381514221, 277220198]

def bechCol32 : List Nat := [441813183, 883626327, 788437480, 994222727, 555166264, 266974160,
  364657519, 638926894, 1010878609, 314462585, 149674438, 492298921, 117598742, 704443390,
  866745153, 506078300, 75476195, 713110795, 819248564, 627607259, 1060965988, 298030988,
  194387763, 943678578, 577432781, 211055909, 381812122, 58574581, 422071882, 936826786,
  763584285]

def bechCol33 : List Nat := [305687157, 610596323, 912039830, 449400774, 150021555, 1051572773,
  748015696, 898023084, 666817753, 300043087, 64627002, 793768298, 1031248671, 187368585,
  420703996, 1000175736, 698683917, 536448411, 230811630, 559167422, 862739915, 87081565,
  386443304, 236701396, 472100001, 712979255, 944200002, 349341970, 116056935, 817265905,
  579737220]

def bechCol34 : List Nat := [19213007, 14307518, 33520241, 27297109, 8761242, 24827371, 6291236,
  30476931, 15999052, 17521213, 3043570, 7442390, 22324505, 11263848, 26146215, 20058150, 1522409,
  31998104, 13462103, 9606515, 28819388, 4769229, 23981826, 14883493, 29765738, 3754523, 18637012,
  21209072, 6731071, 26857294, 12379521]

def bechCol35 : List Nat := [614816224, 457840576, 1072647712, 873507488, 280359744, 794475872,
  201319552, 975261792, 511969664, 560678816, 97394240, 238156480, 714384160, 360443136,
  836678880, 641860800, 48717088, 1023939328, 430787296, 307408480, 922220416, 152615328,
  767418432, 476271776, 952503616, 120144736, 596384384, 678690304, 215394272, 859433408,
  396144672]

def bechCol36 : List Nat := [418369758, 835421589, 690246987, 856918787, 737958877, 47713942,
  439869000, 917967654, 777569272, 125605555, 529745517, 94672933, 491473147, 879697328,
  746638702, 1064182636, 662827954, 245737209, 373978663, 209561711, 345143473, 1035349498,
  626654500, 165228618, 288809108, 940750303, 553477377, 986364745, 572877719, 184631004,
  334425602]

def bechCol37 : List Nat := [1041838567, 774300622, 272618025, 239953596, 810833755, 543917426,
  510833813, 479128689, 580378006, 849874879, 212942424, 314804941, 752532266, 1021667587,
  50092260, 956955851, 118541612, 388964101, 691416802, 927242871, 157133712, 425884089,
  662390878, 629608634, 463348061, 195162996, 901300883, 734688774, 366168033, 99390920,
  1005954095]

def bechCol38 : List Nat := [401321387, 760470358, 985167613, 171382693, 501004814, 660917491,
  814702936, 342764138, 59082689, 960360764, 785800343, 509165007, 162697316, 856352409,
  618744626, 684249588, 1059290207, 94046882, 309372681, 587187793, 890530810, 262937863,
  407351468, 1017576350, 726488629, 301277384, 102665571, 915532859, 561660304, 465713005,
  204053190]

def bechCol39 : List Nat := [487415650, 949919716, 630440070, 589937384, 1042605450, 464987404,
  112884334, 383250672, 198881170, 776564500, 860106870, 905857560, 687019386, 224450044,
  275614366, 766461385, 815930027, 355588653, 138184015, 243728161, 327917635, 907567301,
  722812839, 997766457, 645261915, 65415901, 518747583, 407965649, 89936051, 550473781,
  1036177239]

def bechCol40 : List Nat := [605571082, 438613012, 1044184094, 877225985, 273752075, 778951701,
  175477791, 981922818, 513719304, 547504150, 79300636, 248486915, 718787593, 350955543,
  821256221, 655182852, 51708942, 1026160656, 422686746, 323232773, 928803855, 157323281,
  762894363, 495695878, 965996556, 128912402, 599213080, 700633095, 232429581, 870736915,
  402533401]

def bechCol41 : List Nat := [256765342, 471858965, 324145803, 942399267, 929444541, 607395894,
  729402792, 574857062, 755921656, 1046241395, 823234029, 443039813, 354790875, 108511056,
  154817230, 377961452, 432723570, 177784057, 97855847, 783082703, 568396113, 850598874,
  1040119364, 885302410, 998852884, 685464479, 664188417, 217021353, 60986935, 284198076,
  532506914]

def bechCol42 : List Nat := [707163109, 105662186, 745157903, 210545908, 648732433, 180415006,
  551983611, 420338113, 858499620, 524394283, 896003278, 360805685, 1067910864, 332215263,
  971718714, 815765378, 448390247, 919851368, 485859981, 1007893366, 372590739, 979336604,
  276369017, 697454147, 62143910, 803080361, 100170572, 622781111, 255365458, 592618589,
  158652344]

def bechCol43 : List Nat := [185684059, 347210911, 530797764, 694421783, 578115916, 1037438344,
  919035347, 39326215, 155796060, 384439960, 503006915, 725359376, 539839307, 1066278799,
  882855892, 77898030, 263582069, 269919665, 453506538, 767600697, 651294818, 963816614,
  845413629, 117224233, 233694066, 307148726, 425715693, 798538302, 613018213, 992657057,
  809234170]

def bechCol44 : List Nat := [132203816, 223489616, 179530616, 406084009, 534060161, 359036921,
  310850257, 812128082, 931746426, 1027225858, 987462698, 677138171, 800918483, 621699243,
  586098051, 851749805, 891678341, 1066829309, 947372245, 720433668, 756135724, 664984660,
  541301116, 44875007, 88996311, 268341935, 136304519, 446227798, 494510206, 399166214, 271289902]

def bechCol45 : List Nat := [554859743, 313810327, 866525512, 627580679, 75129816, 937181840,
  382615119, 441760558, 994494449, 148956857, 703765094, 1060938793, 506386678, 763951550,
  211453281, 883520380, 364580771, 639446763, 118444596, 297888891, 819138724, 58012140,
  577195315, 788383826, 267367565, 1011455429, 492562714, 194369365, 713534346, 421628610,
  942929437]

def bechCol46 : List Nat := [140245331, 279172751, 418918364, 558304318, 689763693, 837081777,
  968827874, 303962197, 440787206, 45993690, 182859657, 861475947, 990047544, 603636452,
  731986871, 606646403, 745753040, 881550860, 1020305247, 91208893, 221529582, 365718066,
  496472929, 909551830, 1047351685, 647331417, 785286922, 393323752, 522870203, 131232359,
  260672308]

def bechCol47 : List Nat := [366883738, 691593789, 1021759911, 49669491, 388749033, 734857038,
  1041446100, 99315407, 271932757, 752061682, 957202280, 119442364, 314619942, 774269313,
  1006131739, 156433598, 478990116, 543825539, 901000473, 195500493, 511257175, 580910064,
  927058026, 213488241, 426222059, 629239884, 811549654, 239892226, 462570648, 661951807,
  850044581]

def bechCol48 : List Nat := [550817520, 329858281, 863891993, 634845650, 84031266, 914343227,
  380308427, 457004941, 1005164925, 143944548, 675325332, 1055632991, 507469999, 759337654,
  227957830, 889097786, 338313418, 660058835, 126057507, 287864808, 838646040, 42027777,
  576030193, 801364407, 253171527, 1013638494, 482225070, 169156709, 717352597, 431758476,
  963170940]

def bechCol49 : List Nat := [814595251, 856684879, 58869244, 916182686, 102132269, 93597649,
  890868578, 1059294261, 263073926, 204240250, 1017235913, 163076779, 959833624, 985113572,
  171581271, 785848387, 509256944, 500752652, 760569279, 407686877, 683766382, 725825426,
  466520865, 301241462, 561588421, 586902841, 309776778, 661603048, 400752219, 341883815,
  619513620]

def bechCol50 : List Nat := [115459854, 230895420, 186837042, 420895601, 536321151, 349533261,
  305443651, 817633259, 912117989, 1031747799, 1000275929, 699026586, 793480084, 610886566,
  579380392, 862759670, 898461176, 1051690442, 944652996, 712700295, 748369545, 666492603,
  559421877, 64011549, 87128595, 236163617, 150099247, 449242732, 472326498, 386255184, 300158558]

def bechCol51 : List Nat := [16922655, 9728023, 26626056, 19416071, 2784280, 29111312, 12454927,
  13937678, 30839825, 4250649, 21160966, 33351689, 16699414, 23631902, 6987777, 27875356,
  11231235, 20785163, 4132884, 8461339, 25371652, 1403916, 18306067, 25031698, 8375309, 32080901,
  15449114, 5615637, 22513674, 12697602, 29620253]

def bechCol52 : List Nat := [541524960, 311296736, 852033792, 621314272, 89096960, 931561984,
  398557664, 446005696, 986874400, 136020768, 677150912, 1067254048, 534381248, 756220864,
  223608864, 892011392, 359399520, 665125216, 132252288, 270762848, 811892864, 44925312,
  585794144, 801014336, 268009888, 1026588832, 494371648, 179700384, 720437568, 406323264,
  947848096]

def bechCol53 : List Nat := [586423987, 401094767, 891037404, 760541406, 262205037, 985450673,
  407426562, 171525525, 684546854, 500268538, 1059414857, 661501259, 93957112, 814058788,
  309433239, 342273795, 915583408, 59676524, 561678815, 959602653, 465977710, 786065330,
  204372225, 509602454, 1017902117, 163042041, 725863498, 856365640, 301925627, 618865191,
  102186132]

def bechCol54 : List Nat := [268297057, 494921698, 310510723, 947646180, 931532165, 621021446,
  721021543, 585366760, 756948873, 1067195146, 811726955, 446173708, 359002477, 132642286,
  135927439, 398941648, 406503089, 179878450, 88430931, 800895796, 541151317, 851662038,
  1027520439, 891593016, 987316825, 677070554, 665232827, 224350172, 44215485, 270575678,
  534596447]

def bechCol55 : List Nat := [1009232901, 709842954, 375976975, 109745172, 984430609, 751160350,
  283271195, 218212353, 824574980, 659484683, 459889678, 193674261, 934055952, 566518815,
  501467162, 412307458, 615840775, 853280776, 251372557, 505005078, 574515219, 878091292,
  141635609, 361953283, 699749382, 1071489033, 66718732, 320367639, 792707090, 962016285,
  91265048]

def bechCol56 : List Nat := [726812249, 104082875, 761687010, 208165727, 658119942, 173831908,
  554578109, 415537079, 865522158, 519092748, 899873877, 346868968, 1073646257, 312009043,
  969582346, 831072871, 450587710, 935135196, 485441925, 1038184760, 380843873, 1003838595,
  277289690, 692960720, 35650441, 796495979, 69981746, 623240847, 242720982, 588368692, 138644845]

def bechCol57 : List Nat := [630712283, 465530559, 1042844004, 905641079, 275585964, 776311496,
  198341907, 997317831, 518404892, 550417016, 89740707, 243998896, 723306347, 355749391,
  816032212, 645078414, 65337941, 1036809009, 408655082, 327803385, 907937314, 137793350,
  765552797, 486719817, 949298834, 113094646, 589973549, 687357246, 225434341, 860312449,
  382776410]

def bechCol58 : List Nat := [1052252094, 795126389, 299679179, 240734691, 820069981, 557710230,
  528870440, 480675782, 572428408, 868363699, 226114061, 318756389, 742900123, 1033600080,
  52653038, 961350316, 133504274, 371826905, 680638311, 924080975, 162286833, 410054970,
  650700420, 636194154, 458463956, 177153823, 876032161, 733142153, 353028919, 81164028,
  980312386]

def bechCol59 : List Nat := [63923851, 85650486, 114657981, 145882181, 192846542, 229314675,
  241465080, 291724426, 313276929, 343519420, 397858359, 433234127, 438158916, 482888953,
  520563314, 542514452, 597261215, 625799458, 646158249, 686285137, 724076506, 771558759,
  775056364, 825573790, 855254805, 875539880, 937478947, 965000667, 978049872, 1017008621,
  1062287206]

def bechCol60 : List Nat := [42370770, 84740269, 126586495, 144609626, 169351048, 227777015,
  253042469, 287941277, 330245199, 337947184, 379727074, 431436743, 456242453, 481966954,
  507297208, 551010355, 575751905, 635095198, 660360780, 675893609, 718264251, 759454148,
  801300246, 838754990, 863560828, 888367619, 913698001, 962655220, 1004959014, 1013840729,
  1055620491]

def bechCol61 : List Nat := [733646322, 133274573, 743118399, 225653434, 650755912, 176335223,
  557327493, 410411133, 869068175, 529005488, 876443202, 352670407, 1052761909, 318032138,
  961430776, 820798675, 458680609, 924712734, 480735980, 1033852521, 371579803, 980340132,
  299122774, 681182382, 52463964, 795582307, 80810641, 636040724, 240368614, 572042713, 161620011]

def bechCol62 : List Nat := [948867771, 587833471, 461845188, 379044055, 773411436, 899571880,
  219214355, 758064519, 362919740, 237405688, 916985667, 1001973072, 53901291, 414270767,
  541054868, 182110990, 844388789, 701721457, 291371466, 474811353, 616798562, 1061464998,
  130693405, 670428809, 528186418, 83644150, 1014160461, 828517982, 166509797, 309038625,
  719658138]

def bechCol63 : List Nat := [405086196, 810171105, 678372629, 847311074, 715517718, 46844419,
  451925495, 922830276, 790911536, 122388261, 527327441, 92386598, 497330898, 902533063,
  770609203, 1049767816, 649539708, 249042281, 385682077, 202563434, 339198110, 1012458891,
  612235903, 160655948, 297170360, 970543277, 570183513, 991140526, 590775642, 190423119,
  326942651]

def bechCol64 : List Nat := [658560167, 504433998, 961665513, 1008867996, 459460155, 573773778,
  91472757, 709111857, 218424470, 878001535, 320203224, 375794349, 824638986, 142026723,
  792195908, 109600843, 566801644, 412708101, 1071233442, 984251095, 501919344, 616265625,
  66822974, 751587450, 193758429, 853368116, 362645907, 284052198, 934190657, 251611048,
  700420879]

def bechCol65 : List Nat := [523513740, 1022908984, 600602036, 736400761, 886094581, 387764033,
  136896717, 123284187, 409797975, 1000435939, 613769071, 750632866, 864653358, 273016218,
  259115542, 204918975, 318963507, 818842247, 804955403, 668091846, 954624586, 455745534,
  69087346, 191887972, 341562856, 932683868, 681807824, 546008861, 1069498513, 477312293,
  54991529]

def bechCol66 : List Nat := [408683128, 816611833, 686850945, 860718043, 722567587, 65077794,
  465371226, 908034751, 776175815, 112395078, 518979902, 89260388, 487457564, 905871517,
  765625061, 1043038327, 645366287, 243728782, 383452150, 224789420, 356123092, 1036681813,
  630620205, 137626312, 275251376, 949519153, 549749065, 997818643, 589661035, 198508778,
  327746194]

def bechCol67 : List Nat := [677602599, 46558798, 715459433, 93093308, 770644123, 122295282,
  791246549, 161275729, 570407542, 190492959, 590992440, 202416877, 611567562, 248958115,
  649439620, 297639851, 970914444, 326889957, 991466690, 338813463, 1012041520, 385322073,
  1049946494, 404832506, 809641437, 451358388, 847530899, 497892678, 902715489, 527127304,
  923285039]

def bechCol68 : List Nat := [953802665, 598187634, 461259227, 400505325, 788981316, 880322463,
  211908662, 758838234, 367209587, 245198248, 910471681, 988138039, 37492126, 423777349,
  563842028, 183617213, 841488660, 693524687, 294618982, 489619280, 636952825, 1049190690,
  105954955, 667628903, 521333454, 74230549, 1018524860, 806620298, 147706659, 330535672,
  728386897]

def bechCol69 : List Nat := [315407796, 630061889, 927024885, 463460258, 156461590, 1041378531,
  752783703, 901484132, 662123472, 272004389, 49989777, 774134214, 1021895794, 195666567,
  426057523, 1005820392, 692003932, 511599273, 213049117, 543968842, 849409022, 98678027,
  388827327, 239605644, 478456376, 734391501, 956911993, 366460974, 119242138, 811219823,
  580290267]

def bechCol70 : List Nat := [532665071, 1039893758, 574903825, 728992213, 885807930, 378015019,
  154656708, 108467075, 432587116, 999069565, 607339922, 755276374, 851134649, 285154984,
  255904839, 216932902, 324137161, 823502552, 782922807, 664644595, 941783324, 442904333,
  98172386, 177811877, 354870090, 929215835, 685598644, 569030768, 1045785247, 470891662,
  61795937]

def bechCol71 : List Nat := [153333272, 282548537, 435484449, 565057115, 680376387, 830033762,
  945480058, 332966335, 452659111, 51376262, 170679966, 846643172, 995430908, 581035741,
  729958597, 624284503, 739671375, 904039022, 1019290742, 77317388, 230189844, 340565045,
  493826605, 921533160, 1070519536, 641344465, 790203849, 390294707, 509657771, 127153546,
  246913938]

def bechCol72 : List Nat := [987028218, 665392381, 494784007, 534161875, 620917545, 947895598,
  44787668, 1027429263, 132745589, 445925234, 541105544, 585890396, 406790310, 88272545,
  1066808411, 721323582, 271211716, 223843011, 931350585, 891826157, 268236055, 310459152,
  676717034, 398710193, 756485963, 812302668, 180231094, 135625826, 851551896, 800876703,
  359182949]

def bechCol73 : List Nat := [671498342, 34350284, 705324202, 67946904, 738888190, 100724052,
  772189490, 135116569, 537655167, 167875541, 570938291, 201424513, 604454631, 235756109,
  638261803, 269478715, 940157789, 302239735, 973442961, 335749795, 1006985925, 370083439,
  1040795145, 402807842, 805575748, 437156078, 839399560, 470717882, 872994268, 503492982,
  906293520]

def bechCol74 : List Nat := [880637833, 988728882, 244562363, 667532653, 330615524, 489124703,
  693765334, 521665242, 728403283, 637089000, 293880673, 954091447, 212021310, 36735365,
  911080972, 1019172029, 146940724, 106011279, 841805062, 460777936, 789290585, 563619810,
  367349867, 598257255, 399890926, 424042581, 758847452, 73470730, 807167107, 1049615672,
  183675569]

def bechCol75 : List Nat := [1051209251, 793041254, 300742469, 236525260, 816920815, 559796138,
  536207753, 472295608, 579765915, 862089694, 231366653, 306167412, 748130391, 1031497490,
  64178481, 944591193, 115703674, 386500671, 698459676, 911493013, 150759862, 420519667,
  666415312, 611056097, 449042370, 187637895, 898043556, 712175405, 349880590, 87438923,
  1000216680]

def bechCol76 : List Nat := [29906219, 18124374, 14474109, 12130725, 24202382, 28153843, 6669016,
  23507786, 11462241, 7486748, 28993591, 31435503, 1572804, 13313209, 17002898, 6120372, 26556063,
  21622242, 8501449, 14973457, 19672890, 32568391, 3711340, 20697342, 15959509, 3104424, 31918979,
  25348443, 4889712, 9848589, 22942246]

def bechCol77 : List Nat := [956999008, 579979968, 463171488, 388183200, 774476224, 900922976,
  213408512, 752249152, 366791712, 239575936, 927794912, 1005936096, 50329728, 426022688,
  544092736, 195851904, 849794016, 691911744, 272046368, 479150624, 629532480, 1042188512,
  118762880, 662314944, 510704288, 99341568, 1021407328, 811150176, 156470784, 315154848,
  734151872]

def bechCol78 : List Nat := [681829524, 55012609, 736397717, 69107202, 750623382, 123278083,
  804976535, 136895780, 545995184, 191868965, 600593585, 204907302, 613762994, 259116583,
  668084915, 272997960, 954628828, 318960457, 1000413149, 341565514, 1022887134, 387747147,
  1069509087, 409813868, 818849784, 455749229, 864668409, 477314414, 886102522, 523522159,
  932689147]

def bechCol79 : List Nat := [550103497, 327677842, 860757595, 631197229, 89565156, 907590079,
  382816374, 465223034, 997414067, 138234600, 687121185, 1042674519, 518789790, 765592773,
  225176844, 905050845, 355996436, 645270863, 113239174, 275690736, 816274745, 65618786,
  589343403, 776685479, 243445358, 1036824629, 486889980, 198445450, 723378243, 408157720,
  949622737]

def bechCol80 : List Nat := [858348435, 920032815, 100650428, 1068312958, 210006765, 159104849,
  978511042, 803132117, 485984582, 419972346, 706813801, 276036523, 593141816, 648375684,
  361510423, 255427747, 1007738672, 971969164, 180767007, 815050205, 62781006, 105004018,
  896229473, 552031862, 332271077, 372359257, 622369738, 524975880, 744694939, 698149159,
  448115380]

def bechCol81 : List Nat := [152532156, 280907089, 430520813, 560512651, 679463479, 836170714,
  952207206, 307623990, 457346186, 49001831, 201114075, 859653821, 975843841, 595790828,
  714374992, 615208005, 767303929, 873797908, 1023569320, 96725710, 215260786, 360556447,
  476762915, 922659955, 1072289999, 641786146, 794269086, 395711224, 511796804, 120086441,
  239020821]

def bechCol82 : List Nat := [1011846778, 713791997, 381949831, 117683155, 994852265, 763898414,
  298296404, 211247791, 819522773, 639433554, 441677096, 194302332, 937123590, 555698305,
  491833083, 422470782, 627173892, 866516355, 267023353, 506320813, 576870871, 883314256,
  149536810, 364447441, 704022699, 1060282156, 58528086, 314225922, 787823480, 942746879,
  75408005]

def bechCol83 : List Nat := [643172793, 514593627, 955914978, 1028432831, 454732294, 601927908,
  95861085, 706593399, 206293966, 884068652, 317184149, 391209416, 822569073, 167604883,
  799767338, 103785959, 544844894, 411285180, 1054195461, 996345432, 490016737, 634328323,
  60366010, 741500816, 174353961, 849245387, 348683634, 293520431, 925420950, 265475956,
  696573645]

def bechCol84 : List Nat := [1039109196, 727423128, 380900564, 104050969, 1004289365, 761801089,
  277325261, 208101915, 831057495, 658307715, 450066127, 173331202, 935026510, 554650522,
  484493270, 416179519, 622979443, 865467815, 242905579, 519951398, 588404842, 900091070,
  139051250, 346621732, 692489064, 1072865212, 35460080, 312129085, 796211825, 968961701,
  70165225]

def bechCol85 : List Nat := [307646329, 615268347, 922382466, 458029823, 152745350, 1071695108,
  766937725, 874370295, 642489230, 280095500, 48735349, 793849352, 1023893873, 201134579,
  430661258, 976195015, 679068350, 511947324, 215350597, 560166712, 859125825, 97470659,
  395904954, 238180656, 476321353, 715024075, 952641970, 360621007, 120122550, 835886132,
  595907405]

def bechCol86 : List Nat := [216107855, 432214974, 354588913, 823534197, 1039640890, 685060555,
  607435396, 851198435, 1046334124, 729764445, 664721682, 61498262, 256633049, 443117608,
  378076007, 929867718, 999107721, 783266936, 575553335, 108692915, 177934076, 532256269,
  324541762, 97576485, 154234218, 471070107, 284327636, 885441616, 942100255, 755357678,
  568614049]

def bechCol87 : List Nat := [616627831, 461463015, 1061266320, 898768846, 290644409, 773014057,
  181648478, 1001667260, 527746251, 540370779, 83204396, 237380978, 719772421, 363296917,
  828868322, 670593137, 54038022, 1014574486, 414831585, 308965311, 917148104, 166408792,
  757845039, 474761933, 948745402, 130881322, 588114269, 702436611, 220113780, 845088996,
  379582099]

def bechCols : List (List Nat) := [bechCol1, bechCol2, bechCol3, bechCol4, bechCol5, bechCol6,
  bechCol7, bechCol8, bechCol9, bechCol10, bechCol11, bechCol12, bechCol13, bechCol14, bechCol15,
  bechCol16, bechCol17, bechCol18, bechCol19, bechCol20, bechCol21, bechCol22, bechCol23,
  bechCol24, bechCol25, bechCol26, bechCol27, bechCol28, bechCol29, bechCol30, bechCol31,
  bechCol32, bechCol33, bechCol34, bechCol35, bechCol36, bechCol37, bechCol38, bechCol39,
  bechCol40, bechCol41, bechCol42, bechCol43, bechCol44, bechCol45, bechCol46, bechCol47,
  bechCol48, bechCol49, bechCol50, bechCol51, bechCol52, bechCol53, bechCol54, bechCol55,
  bechCol56, bechCol57, bechCol58, bechCol59, bechCol60, bechCol61, bechCol62, bechCol63,
  bechCol64, bechCol65, bechCol66, bechCol67, bechCol68, bechCol69, bechCol70, bechCol71,
  bechCol72, bechCol73, bechCol74, bechCol75, bechCol76, bechCol77, bechCol78, bechCol79,
  bechCol80, bechCol81, bechCol82, bechCol83, bechCol84, bechCol85, bechCol86, bechCol87]

def bechTree00000 : KTree := (.n (.n (.n (.n (.n (.n (.n .l 1 33 .l) 2 34 .l) 3 35 (.n (.n .l 4 36
  .l) 5 37 .l)) 6 38 (.n (.n (.n .l 7 39 .l) 8 40 .l) 9 41 (.n .l 10 42 .l))) 11 43 (.n (.n (.n
  (.n .l 12 44 .l) 13 45 .l) 14 46 (.n (.n .l 15 47 .l) 16 48 .l)) 17 49 (.n (.n (.n .l 18 50 .l)
  19 51 .l) 20 52 (.n .l 21 53 .l)))) 22 54 (.n (.n (.n (.n (.n .l 23 55 .l) 24 56 .l) 25 57 (.n
  (.n .l 26 58 .l) 27 59 .l)) 28 60 (.n (.n (.n .l 29 61 .l) 30 62 .l) 31 63 (.n .l 32 65 .l))) 64
  66 (.n (.n (.n (.n .l 96 67 .l) 128 68 .l) 160 69 (.n .l 192 70 .l)) 224 71 (.n (.n (.n .l 256
  72 .l) 288 73 .l) 320 74 (.n .l 352 75 .l))))) 384 76 (.n (.n (.n (.n (.n (.n .l 416 77 .l) 448
  78 .l) 480 79 (.n (.n .l 512 80 .l) 544 81 .l)) 576 82 (.n (.n (.n .l 608 83 .l) 640 84 .l) 672
  85 (.n .l 704 86 .l))) 736 87 (.n (.n (.n (.n .l 768 88 .l) 800 89 .l) 832 90 (.n .l 864 91 .l))
  896 92 (.n (.n (.n .l 928 93 .l) 960 94 .l) 992 95 (.n .l 1024 97 .l)))) 2048 98 (.n (.n (.n (.n
  (.n .l 3072 99 .l) 4096 100 .l) 5120 101 (.n (.n .l 6144 102 .l) 7168 103 .l)) 8192 104 (.n (.n
  (.n .l 9216 105 .l) 10240 106 .l) 11264 107 (.n .l 12288 108 .l))) 13312 109 (.n (.n (.n (.n .l
  14336 110 .l) 15360 111 .l) 16384 112 (.n .l 17408 113 .l)) 18432 114 (.n (.n (.n .l 19456 115
  .l) 20480 116 .l) 21504 117 (.n .l 22528 118 .l))))))

def bechTree00001 : KTree := (.n (.n (.n (.n (.n (.n (.n .l 24576 120 .l) 25600 121 .l) 26624 122
  (.n (.n .l 27648 123 .l) 28672 124 .l)) 29696 125 (.n (.n (.n .l 30720 126 .l) 31744 127 .l)
  32768 129 (.n .l 39659 885 .l))) 43872 1654 (.n (.n (.n (.n .l 47575 1105 .l) 49150 2445 .l)
  53028 683 (.n .l 63340 612 .l)) 65536 130 (.n (.n (.n .l 78070 867 .l) 81768 694 .l) 86008 616
  (.n .l 87008 1637 .l)))) 95111 1099 (.n (.n (.n (.n (.n .l 97013 2458 .l) 98304 131 .l) 109085
  886 (.n (.n .l 112788 620 .l) 115979 2455 .l)) 117328 1114 (.n (.n (.n .l 127052 701 .l) 129152
  1651 .l) 131072 132 (.n .l 132832 1642 .l))) 147193 624 (.n (.n (.n (.n .l 149038 1110 .l)
  152803 2461 .l) 156101 870 (.n .l 162800 677 .l)) 163840 133 (.n (.n (.n .l 175488 1660 .l)
  177364 686 .l) 182677 628 (.n .l 191261 2448 .l))))) 195374 883 (.n (.n (.n (.n (.n (.n .l
  196601 1095 .l) 196608 134 .l) 208406 2439 (.n (.n .l 210345 1117 .l) 214168 691 .l)) 217395 869
  (.n (.n (.n .l 218368 1647 .l) 225537 632 .l) 229376 135 (.n .l 231021 636 .l))) 232380 696 (.n
  (.n (.n (.n .l 232574 1100 .l) 233960 2442 .l) 248792 880 (.n .l 261728 1657 .l)) 262144 136 (.n
  (.n (.n .l 264416 1652 .l) 265670 2451 .l) 273788 1093 (.n .l 284393 682 .l)))) 288650 876 (.n
  (.n (.n (.n (.n .l 293115 617 .l) 294912 137 .l) 298903 621 (.n (.n .l 300203 1108 .l) 301517
  673 .l)) 304000 1634 (.n (.n (.n .l 307768 2462 .l) 327009 889 .l) 327680 138 (.n .l 341763 609
  .l))) 350076 879 (.n (.n (.n (.n .l 350976 1649 .l) 351995 1102 .l) 354689 700 (.n .l 358195
  2441 .l)) 360448 139 (.n (.n (.n .l 370341 695 .l) 376943 613 .l) 379085 2436 (.n .l 380311 890
  .l))))))

def bechTree0000 : KTree := .n bechTree00000 23552 119 bechTree00001

def bechTree00010 : KTree := (.n (.n (.n (.n (.n (.n (.n .l 389216 1639 .l) 393216 140 .l) 394831
  874 (.n (.n .l 396800 1662 .l) 404761 687 .l)) 411138 633 (.n (.n (.n .l 416037 2446 .l) 420690
  1107 .l) 425984 141 (.n .l 433316 895 .l))) 435552 1640 (.n (.n (.n (.n .l 438638 637 .l) 447109
  1090 .l) 451133 676 (.n (.n .l 452315 2435 .l) 458752 142 .l)) 461306 625 (.n (.n (.n .l 463473
  697 .l) 465109 1112 .l) 467920 2452 (.n .l 472761 873 .l)))) 482784 1659 (.n (.n (.n (.n (.n .l
  491520 143 .l) 498734 2457 .l) 499970 1097 (.n (.n .l 502866 892 .l) 515413 690 .l)) 521856 1645
  (.n (.n (.n .l 523926 629 .l) 524288 144 .l) 527602 692 (.n .l 528832 1633 .l))) 531340 2447 (.n
  (.n (.n (.n .l 546271 626 .l) 547537 1098 .l) 552500 888 (.n .l 557056 145 .l)) 565939 630 (.n
  (.n (.n .l 566386 2434 .l) 572064 1655 .l) 574422 703 (.n .l 582406 1115 .l))))) 586975 877 (.n
  (.n (.n (.n (.n (.n .l 589824 146 .l) 596519 634 .l) 600406 1089 (.n (.n .l 603034 674 .l)
  606752 1636 .l)) 614082 891 (.n (.n (.n .l 614777 2453 .l) 622592 147 .l) 626817 1104 (.n .l
  640041 878 .l))) 646791 2456 (.n (.n (.n (.n .l 649536 1650 .l) 650571 638 .l) 654526 681 (.n .l
  655360 148 .l)) 659441 894 (.n (.n (.n .l 661280 1643 .l) 662783 1116 .l) 675695 2450 (.n .l
  682790 610 .l)))) 685826 689 (.n (.n (.n (.n (.n .l 688128 149 .l) 693530 875 .l) 695370 614 (.n
  (.n .l 697640 1101 .l) 702502 698 .l)) 703552 1661 (.n (.n (.n .l 716945 2463 .l) 720896 150 .l)
  730334 618 (.n .l 734618 2440 .l))) 737031 893 (.n (.n (.n (.n .l 738496 1646 .l) 739434 679 .l)
  749432 1111 (.n .l 753664 151 .l)) 755534 684 (.n (.n (.n .l 756324 2437 .l) 763372 872 .l)
  775090 622 (.n .l 775855 1094 .l))))))

def bechTree00011 : KTree := (.n (.n (.n (.n (.n (.n (.n .l 786432 152 .l) 788926 884 .l) 792138
  2460 (.n (.n .l 792864 1653 .l) 797988 635 .l)) 809499 702 (.n (.n (.n .l 817069 1103 .l) 819200
  153 .l) 824149 865 (.n .l 824639 693 .l))) 829876 2449 (.n (.n (.n (.n .l 832064 1635 .l) 839290
  1118 .l) 842312 639 (.n .l 851968 154 .l)) 853034 1092 (.n (.n (.n .l 866632 887 .l) 871104 1648
  .l) 877276 627 (.n .l 877939 680 .l)))) 879807 2438 (.n (.n (.n (.n (.n .l 884736 155 .l) 890288
  631 .l) 893859 866 (.n (.n .l 895575 675 .l) 900605 1109 .l)) 906049 2443 (.n (.n (.n .l 909728
  1638 .l) 917504 156 .l) 922589 619 (.n .l 925632 1663 .l))) 926187 699 (.n (.n (.n (.n .l 930179
  1113 .l) 934569 2433 .l) 944251 882 (.n .l 950272 157 .l)) 952404 1096 (.n (.n (.n .l 963744
  1641 .l) 976049 623 .l) 978639 688 (.n .l 979600 871 .l))))) 982359 2444 (.n (.n (.n (.n (.n (.n
  .l 983040 158 .l) 990851 685 .l) 997468 2459 (.n (.n .l 999940 1106 .l) 1002528 1658 .l))
  1005709 881 (.n (.n (.n .l 1006629 611 .l) 1015808 159 .l) 1017762 2454 (.n .l 1026889 615 .l)))
  1032806 868 (.n (.n (.n (.n .l 1036711 678 .l) 1042240 1644 .l) 1047507 1091 (.n .l 1048576 161
  .l)) 1073446 2338 (.n (.n (.n .l 1098744 276 .l) 1103180 1016 .l) 1108127 2715 (.n .l 1114076
  1817 .l)))) 1143804 816 (.n (.n (.n (.n (.n .l 1147980 2382 .l) 1171628 2189 .l) 1228944 1384
  (.n (.n .l 1232529 410 .l) 1269104 917 .l)) 1282146 306 (.n (.n (.n .l 1313368 1558 .l) 1324086
  1921 .l) 1377446 255 (.n .l 1381733 1757 .l))) 1398443 330 (.n (.n (.n (.n .l 1399614 2311 .l)
  1402343 1432 .l) 1403916 1686 (.n .l 1437302 1482 .l)) 1449787 975 (.n (.n (.n .l 1454962 2146
  .l) 1463888 2022 .l) 1491060 1158 (.n .l 1522409 1137 .l))))))

def bechTree0001 : KTree := .n bechTree00010 782240 1656 bechTree00011

def bechTree000 : KTree := .n bechTree0000 386860 1119 bechTree0001

def bechTree00100 : KTree := (.n (.n (.n (.n (.n (.n (.n .l 1531307 2602 .l) 1540497 423 .l)
  1552171 1508 (.n (.n .l 1562180 2219 .l) 1565383 1199 .l)) 1572343 536 (.n (.n (.n .l 1572804
  2477 .l) 1605508 2282 .l) 1615904 1297 (.n .l 1639498 1977 .l))) 1645407 1871 (.n (.n (.n (.n .l
  1684415 1997 .l) 1688688 2801 .l) 1696916 715 (.n (.n .l 1718485 2111 .l) 1719144 2498 .l))
  1725820 559 (.n (.n (.n .l 1812879 1462 .l) 1818315 460 .l) 1829002 2651 (.n .l 1830455 1052
  .l)))) 1839663 1571 (.n (.n (.n (.n (.n .l 1846334 1225 .l) 1864891 1714 .l) 1886437 2679 (.n
  (.n .l 1891841 199 .l) 1905841 1341 .l)) 1921820 2764 (.n (.n (.n .l 1931123 2271 .l) 1941997
  1369 .l) 1960389 795 (.n .l 1961906 2581 .l))) 1964888 744 (.n (.n (.n (.n .l 1985761 378 .l)
  1997620 1889 .l) 2000360 1624 (.n .l 2005051 594 .l)) 2005577 2415 (.n (.n (.n .l 2017691 838
  .l) 2019593 1067 .l) 2026884 644 (.n .l 2033681 2118 .l))))) 2034615 945 (.n (.n (.n (.n (.n (.n
  .l 2041810 1841 .l) 2044246 1274 .l) 2050587 2550 (.n (.n .l 2072683 505 .l) 2084960 1787 .l))
  2088217 2071 (.n (.n (.n .l 2097152 162 .l) 2123340 2340 .l) 2133713 574 (.n .l 2158979 2103
  .l))) 2159600 2500 (.n (.n (.n (.n .l 2166424 1017 .l) 2172665 257 .l) 2186929 1819 (.n .l
  2192663 2719 .l)) 2246385 809 (.n (.n (.n .l 2295960 2396 .l) 2319704 2202 .l) 2347806 1445 (.n
  .l 2356500 2655 .l)))) 2357430 472 (.n (.n (.n (.n (.n .l 2358631 1041 .l) 2416168 2292 .l)
  2434313 1392 (.n (.n .l 2440235 413 .l) 2478144 1291 .l)) 2498249 899 (.n (.n (.n .l 2525332
  1979 .l) 2536375 1886 .l) 2564292 301 (.n .l 2600137 2795 .l))) 2613879 2010 (.n (.n (.n (.n .l
  2616577 726 .l) 2625977 1541 .l) 2648133 1922 (.n .l 2670018 381 .l)) 2676577 1890 (.n (.n (.n
  .l 2721298 1078 .l) 2722768 1625 .l) 2732127 589 (.n .l 2732466 2430 .l))))))

def bechTree00101 : KTree := (.n (.n (.n (.n (.n (.n (.n .l 2752264 648 .l) 2754892 247 .l)
  2755702 340 (.n (.n .l 2758517 2318 .l) 2763466 1747 .l)) 2781134 1433 (.n (.n (.n .l 2784280
  1669 .l) 2789387 2124 .l) 2789991 939 (.n .l 2798911 2533 .l))) 2804397 1835 (.n (.n (.n (.n .l
  2810501 1277 .l) 2850277 1492 .l) 2852032 1791 (.n .l 2858523 2055 .l)) 2867414 507 (.n (.n (.n
  .l 2887081 2028 .l) 2898815 990 .l) 2909165 2148 (.n .l 2924926 1574 .l)))) 2936159 1709 (.n (.n
  (.n (.n (.n .l 2938965 1234 .l) 2958529 1164 .l) 2989346 206 (.n (.n .l 2995658 2663 .l) 3022678
  2612 .l)) 3043570 1131 (.n (.n (.n .l 3045958 2742 .l) 3049265 2776 .l) 3057995 1331 (.n .l
  3067887 2263 .l))) 3080971 430 (.n (.n (.n (.n .l 3083688 2230 .l) 3103606 1512 .l) 3104424 2490
  (.n .l 3104711 537 .l)) 3105966 1214 (.n (.n (.n .l 3130330 1371 .l) 3135417 752 .l) 3143562 799
  (.n .l 3145325 2563 .l))))) 3145728 163 (.n (.n (.n (.n (.n (.n .l 3147626 2342 .l) 3191633 1573
  .l) 3193316 1727 (.n (.n .l 3208299 1243 .l) 3228451 201 .l)) 3243311 2672 (.n (.n (.n .l
  3251592 2692 .l) 3252589 1794 .l) 3267540 993 (.n .l 3269889 277 .l))) 3281375 2582 (.n (.n (.n
  (.n .l 3284559 772 .l) 3288289 760 .l) 3301943 1346 (.n .l 3311092 2199 .l)) 3312852 2386 (.n
  (.n (.n .l 3355917 825 .l) 3389596 2248 .l) 3390970 1326 (.n .l 3396653 2772 .l)))) 3425026 2064
  (.n (.n (.n (.n (.n .l 3429536 1764 .l) 3432637 482 .l) 3453094 319 (.n (.n .l 3490745 918 .l)
  3512346 2122 .l)) 3512784 954 (.n (.n (.n .l 3527635 1255 .l) 3534207 1850 .l) 3538724 2547 (.n
  .l 3583061 1891 .l))) 3600675 359 (.n (.n (.n (.n .l 3608120 1601 .l) 3609228 652 .l) 3614820
  607 (.n .l 3615739 2417 .l)) 3626779 1085 (.n (.n (.n .l 3636868 842 .l) 3663257 1400 .l)
  3666618 391 (.n .l 3674960 1037 .l))))))

def bechTree0010 : KTree := .n bechTree00100 2733855 844 bechTree00101

def bechTree00110 : KTree := (.n (.n (.n (.n (.n (.n (.n .l 3688061 468 .l) 3701393 1459 .l)
  3703450 425 (.n (.n .l 3704425 1201 .l) 3711340 2487 .l)) 3711536 513 (.n (.n (.n .l 3726316
  2237 .l) 3732573 1516 .l) 3752701 2622 (.n .l 3753829 2749 .l))) 3754523 1146 (.n (.n (.n (.n .l
  3810372 977 .l) 3821727 2150 .l) 3824633 2026 (.n .l 3852440 2502 .l)) 3852630 2088 (.n (.n (.n
  .l 3857325 561 .l) 3925173 1162 .l) 3939297 1555 (.n .l 3955827 1923 .l)))) 3973548 2302 (.n (.n
  (.n (.n (.n .l 4028512 1306 .l) 4065685 733 .l) 4084168 2007 (.n (.n .l 4090041 2810 .l) 4101011
  1502 .l)) 4131369 1409 (.n (.n (.n .l 4132330 232 .l) 4132884 1683 .l) 4145071 1742 (.n .l
  4148299 2313 .l))) 4152029 350 (.n (.n (.n (.n .l 4164830 1954 .l) 4172008 1873 .l) 4194304 164
  (.n .l 4222392 2344 .l)) 4231832 231 (.n (.n (.n .l 4233413 321 .l) 4238307 2332 .l) 4247732
  1743 (.n .l 4250649 1674 .l))))) 4259516 1435 (.n (.n (.n (.n (.n (.n .l 4266155 565 .l) 4277993
  2504 .l) 4278022 2087 (.n (.n .l 4300822 2136 .l) 4301294 950 .l)) 4306042 1846 (.n (.n (.n .l
  4318250 1267 .l) 4319831 2538 .l) 4331577 1019 (.n .l 4332651 1823 .l))) 4344059 258 (.n (.n (.n
  (.n .l 4345351 2711 .l) 4382666 1473 .l) 4426112 1783 (.n .l 4433285 511 .l)) 4438335 2062 (.n
  (.n (.n .l 4467947 818 .l) 4498267 1546 .l) 4519050 1924 (.n .l 4558818 1892 .l)))) 4586372 371
  (.n (.n (.n (.n (.n .l 4591897 2385 .l) 4615833 2205 .l) 4654901 1450 (.n (.n .l 4673025 2647
  .l) 4674885 473 .l)) 4677326 1035 (.n (.n (.n .l 4688173 1061 .l) 4690601 1627 .l) 4710192 656
  (.n .l 4710551 602 .l))) 4711245 2421 (.n (.n (.n (.n .l 4713271 856 .l) 4766629 2593 .l)
  4769229 1142 (.n .l 4773292 2725 .l)) 4791664 2273 (.n (.n (.n .l 4819819 2777 .l) 4833022 2247
  .l) 4838038 1327 (.n .l 4868626 1385 .l))))))

def bechTree00111 : KTree := (.n (.n (.n (.n (.n (.n (.n .l 4883254 444 .l) 4888549 1520 .l)
  4889424 2213 (.n (.n .l 4889712 2493 .l) 4890286 539 .l)) 4910428 1205 (.n (.n (.n .l 4916352
  1302 .l) 4951675 745 .l) 4957885 1375 (.n .l 4967988 791 .l))) 4972026 2566 (.n (.n (.n (.n .l
  4995250 902 .l) 5020498 2040 .l) 5039866 2152 (.n .l 5043191 981 .l)) 5050625 1983 (.n (.n (.n
  .l 5071463 1877 .l) 5084291 1229 .l) 5095063 1722 (.n .l 5096149 1580 .l)))) 5128584 314 (.n (.n
  (.n (.n (.n .l 5163394 1176 .l) 5200274 2806 .l) 5203431 2013 (.n (.n .l 5209602 709 .l) 5225028
  220 .l)) 5237652 2670 (.n (.n (.n .l 5242880 165 .l) 5246110 2346 .l) 5286147 1564 (.n .l
  5292220 1925 .l))) 5333748 2283 (.n (.n (.n (.n .l 5355709 1220 .l) 5360172 1704 .l) 5361914
  1583 (.n .l 5409539 278 .l)) 5416600 2700 (.n (.n (.n .l 5426549 995 .l) 5432247 1798 .l)
  5448561 2681 (.n .l 5465157 219 .l))))) 5483680 1287 (.n (.n (.n (.n (.n (.n .l 5510475 1958 .l)
  5536056 1882 .l) 5555751 1330 (.n (.n .l 5556621 2264 .l) 5560439 2773 .l)) 5594903 802 (.n (.n
  (.n .l 5609022 248 .l) 5610331 1411 .l) 5615637 1692 (.n .l 5621201 1746 .l))) 5623406 331 (.n
  (.n (.n (.n .l 5632221 2331 .l) 5637968 1350 .l) 5646321 780 (.n .l 5648968 2579 .l)) 5666083
  737 (.n (.n (.n .l 5675670 718 .l) 5676514 2791 .l) 5690968 2000 (.n .l 5714364 1483 .l))))
  5738037 2192 (.n (.n (.n (.n (.n .l 5739861 2399 .l) 5769718 1182 .l) 5802626 1377 (.n (.n .l
  5813959 393 .l) 5838657 1603 .l)) 5841580 862 (.n (.n (.n .l 5845684 660 .l) 5855268 1070 .l)
  5863596 584 (.n .l 5863684 2426 .l))) 5950722 2046 (.n (.n (.n (.n .l 5952904 2154 .l) 5958860
  986 .l) 5983703 570 (.n .l 5995905 2506 .l)) 5996499 2104 (.n (.n (.n .l 6010725 361 .l) 6026454
  1893 .l) 6030830 486 (.n .l 6052320 1772 .l))))))

def bechTree0011 : KTree := .n bechTree00110 4880470 403 bechTree00111

def bechTree001 : KTree := .n bechTree0010 3677598 2628 bechTree0011

def bechTree00 : KTree := .n bechTree000 1522979 2731 bechTree001

def bechTree01000 : KTree := (.n (.n (.n (.n (.n (.n (.n .l 6071947 2636 .l) 6074042 1468 .l)
  6074617 1047 (.n (.n .l 6089614 469 .l) 6095527 443 .l)) 6098843 1210 (.n (.n (.n .l 6109390
  1524 .l) 6114580 2222 .l) 6120281 515 (.n .l 6120372 2480 .l))) 6148586 296 (.n (.n (.n (.n .l
  6198184 1831 .l) 6201420 2556 .l) 6203399 2142 (.n (.n .l 6203993 935 .l) 6215036 1257 .l))
  6251970 915 (.n (.n (.n .l 6284814 2603 .l) 6285455 2734 .l) 6291236 1127 (.n .l 6291456 166
  .l)))) 6294516 2348 (.n (.n (.n (.n (.n .l 6325527 2156 .l) 6330107 2036 .l) 6342792 971 (.n (.n
  .l 6376662 1247 .l) 6382507 1578 .l)) 6386632 1719 (.n (.n (.n .l 6395514 555 .l) 6403353 2508
  .l) 6403717 2096 (.n .l 6432614 210 .l))) 6446686 2665 (.n (.n (.n (.n .l 6493857 994 .l)
  6503184 2696 .l) 6505178 1796 (.n .l 6516226 259 .l)) 6548803 1172 (.n (.n (.n .l 6562711 2565
  .l) 6568382 776 .l) 6576578 761 (.n .l 6579559 1348 .l))))) 6595497 1050 (.n (.n (.n (.n (.n (.n
  .l 6598131 449 .l) 6601493 2632 .l) 6607915 1455 (.n (.n .l 6622145 2183 .l) 6625665 2381 .l))
  6651965 434 (.n (.n (.n .l 6654450 1195 .l) 6657784 2227 .l) 6668649 514 (.n .l 6669016 2471
  .l))) 6671507 1528 (.n (.n (.n (.n .l 6711834 827 .l) 6726899 2613 .l) 6729706 2739 (.n .l
  6731071 1149 .l)) 6753370 2753 (.n (.n (.n .l 6779153 2256 .l) 6781917 1340 .l) 6819136 1768 (.n
  .l 6825764 2057 .l)))) 6841683 484 (.n (.n (.n (.n (.n .l 6850448 1991 .l) 6853379 723 .l)
  6878555 2813 (.n (.n .l 6906188 311 .l) 6922799 1493 .l)) 6956667 901 (.n (.n (.n .l 6984050
  1410 .l) 6984883 341 .l) 6986708 240 (.n .l 6987777 1679 .l))) 6995094 2322 (.n (.n (.n (.n .l
  7010942 1756 .l) 7014063 1262 .l) 7024669 2132 (.n .l 7025545 957 .l)) 7036776 2543 (.n (.n (.n
  .l 7044823 1853 .l) 7051669 1956 .l) 7066064 1867 (.n .l 7118031 1926 .l))))))

def bechTree01001 : KTree := (.n (.n (.n (.n (.n (.n (.n .l 7161414 366 .l) 7166083 1894 .l)
  7193432 2293 (.n (.n .l 7212863 1075 .l) 7215481 1602 .l)) 7217208 664 (.n (.n (.n .l 7229640
  599 .l) 7230207 2411 .l) 7232552 852 (.n .l 7263424 1309 .l))) 7292029 398 (.n (.n (.n (.n .l
  7302939 1401 .l) 7340032 167 .l) 7367378 2350 (.n .l 7378355 850 .l)) 7380113 1626 (.n (.n (.n
  .l 7391414 2404 .l) 7391475 581 .l) 7392700 668 (.n .l 7396918 1080 .l)))) 7418155 2796 (.n (.n
  (.n (.n (.n .l 7418927 1994 .l) 7436183 728 .l) 7442390 1132 (.n (.n .l 7443145 2744 .l) 7469400
  2623 .l)) 7471532 437 (.n (.n (.n .l 7486622 538 .l) 7486748 2474 .l) 7487676 2232 (.n .l
  7496632 1532 .l))) 7498549 1188 (.n (.n (.n (.n .l 7511519 1981 .l) 7522959 1860 .l) 7539367 372
  (.n .l 7545783 1895 .l)) 7581178 279 (.n (.n (.n .l 7585030 1821 .l) 7586797 1018 .l) 7590799
  2707 (.n .l 7607667 2553 .l))))) 7616505 1268 (.n (.n (.n (.n (.n (.n .l 7616524 2130 .l)
  7616574 940 .l) 7624965 1836 (.n (.n .l 7642573 2371 .l) 7662445 2186 .l)) 7679287 1170 (.n (.n
  (.n .l 7716060 2303 .l) 7765216 1292 .l) 7779941 2158 (.n .l 7782571 2034 .l))) 7788467 964 (.n
  (.n (.n (.n .l 7805414 811 .l) 7849272 509 .l) 7855392 1779 (.n .l 7862845 2078 .l)) 7907577
  1927 (.n (.n (.n .l 7911610 1561 .l) 7961355 912 .l) 7971482 753 (.n .l 7980170 1373 .l))))
  7982117 2576 (.n (.n (.n (.n (.n .l 7983227 787 .l) 7997026 2255 .l) 8019782 2765 (.n (.n .l
  8023916 1313 .l) 8057134 293 .l)) 8097360 2095 (.n (.n (.n .l 8097393 2510 .l) 8110854 548 .l)
  8146009 1503 (.n .l 8193907 1701 .l))) 8216808 1238 (.n (.n (.n (.n .l 8221060 1577 .l) 8227564
  404 .l) 8236939 1393 (.n .l 8296123 2686 .l)) 8321383 213 (.n (.n (.n .l 8327992 461 .l) 8342942
  1030 .l) 8344479 2643 (.n .l 8355236 1465 .l))))))

def bechTree0100 : KTree := .n bechTree01000 7123682 1551 bechTree01001

def bechTree01010 : KTree := (.n (.n (.n (.n (.n (.n (.n .l 8372760 351 .l) 8375309 1689 .l)
  8382376 2325 (.n (.n .l 8384283 1729 .l) 8385685 1434 .l)) 8388608 168 (.n (.n (.n .l 8421209
  2352 .l) 8434989 1394 .l) 8443013 399 (.n .l 8455489 1758 .l))) 8461339 1684 (.n (.n (.n (.n .l
  8462393 238 .l) 8466826 322 .l) 8475366 2321 (.n .l 8477809 1439 .l)) 8487781 433 (.n (.n (.n .l
  8497898 1513 .l) 8500137 2218 .l) 8501372 543 (.n .l 8501449 2483 .l)))) 8519313 1187 (.n (.n
  (.n (.n (.n .l 8531186 2512 .l) 8531756 2094 .l) 8532310 547 (.n (.n .l 8554752 1285 .l) 8601605
  2137 .l)) 8602588 933 (.n (.n (.n .l 8612061 1829 .l) 8612948 1263 .l) 8615335 2548 (.n .l
  8624639 754 .l))) 8626141 2572 (.n (.n (.n (.n .l 8633697 775 .l) 8636531 1367 .l) 8663131 1023
  (.n .l 8664543 260 .l)) 8665302 1815 (.n (.n (.n .l 8666414 2695 .l) 8724148 1474 .l) 8752984
  2730 (.n .l 8761242 1125 .l))))) 8778346 2594 (.n (.n (.n (.n (.n (.n .l 8829641 2274 .l)
  8852224 1767 .l) 8866570 503 (.n (.n .l 8876631 2076 .l) 8881189 1342 .l)) 8885238 2779 (.n (.n
  (.n .l 8911093 2254 .l) 8935894 813 .l) 8955664 317 (.n .l 8995775 1556 .l))) 8998164 1928 (.n
  (.n (.n (.n .l 9025284 1177 .l) 9082637 2789 .l) 9100580 714 (.n .l 9105358 2003 .l)) 9116388
  1896 (.n (.n (.n .l 9131560 367 .l) 9171368 209 .l) 9172513 2684 (.n .l 9183771 2379 .l))))
  9206843 2195 (.n (.n (.n (.n (.n .l 9236813 908 .l) 9286573 2041 .l) 9291495 963 (.n (.n .l
  9301245 2160 .l) 9309027 1460 .l)) 9309834 475 (.n (.n (.n .l 9313468 1046 .l) 9321762 2631 .l)
  9347586 1975 (.n .l 9364974 1859 .l))) 9376346 1066 (.n (.n (.n (.n .l 9379689 649 .l) 9379954
  1631 .l) 9397511 605 (.n .l 9398202 2403 .l)) 9402215 857 (.n (.n (.n .l 9413795 1592 .l)
  9414918 1242 .l) 9435175 1725 (.n .l 9437184 169 .l))))))

def bechTree01011 : KTree := (.n (.n (.n (.n (.n (.n (.n .l 9498818 1480 .l) 9545114 1607 .l)
  9551612 863 (.n (.n .l 9552723 1057 .l) 9564909 653 .l)) 9567548 591 (.n (.n (.n .l 9567731 2412
  .l) 9574932 405 .l) 9598397 1402 (.n .l 9606515 1140 .l))) 9613249 2600 (.n (.n (.n (.n .l
  9613947 2721 .l) 9648560 705 .l) 9655165 2804 (.n .l 9657457 2014 .l)) 9667896 1235 (.n (.n (.n
  .l 9669788 1711 .l) 9680524 1595 .l) 9701848 2326 (.n .l 9703460 1731 .l)))) 9708703 241 (.n (.n
  (.n (.n (.n .l 9714070 1415 .l) 9725729 328 .l) 9728023 1666 (.n (.n .l 9750282 1806 .l) 9754033
  2716 .l)) 9757975 999 (.n (.n (.n .l 9762343 272 .l) 9771721 373 .l) 9789904 1897 (.n .l 9806572
  1442 .l))) 9809985 471 (.n (.n (.n (.n .l 9819560 2652 .l) 9826955 1034 .l) 9831156 438 (.n .l
  9831873 1517 .l)) 9837654 1196 (.n (.n (.n .l 9848203 519 .l) 9848589 2494 .l) 9856493 2209 (.n
  .l 9908137 214 .l))))) 9912004 2667 (.n (.n (.n (.n (.n (.n .l 9938504 1966 .l) 9961137 1868 .l)
  9967514 2514 (.n (.n .l 9967609 2097 .l) 9987114 556 .l)) 10006350 2059 (.n (.n (.n .l 10011488
  1788 .l) 10021729 494 .l) 10037802 829 (.n .l 10101024 1300 .l))) 10129286 2257 (.n (.n (.n (.n
  .l 10129556 1315 .l) 10141930 2775 .l) 10172274 303 (.n .l 10213852 972 .l)) 10215311 2162 (.n
  (.n (.n .l 10216957 2047 .l) 10239932 2530 .l) 10242068 2143 (.n .l 10242155 948 .l)))) 10243855
  1844 (.n (.n (.n (.n (.n .l 10247426 1269 .l) 10308071 1538 .l) 10320162 1929 (.n (.n .l
  10329239 2206 .l) 10331735 2373 .l)) 10376356 796 (.n (.n (.n .l 10379943 762 .l) 10381726 1358
  .l) 10383471 2585 (.n .l 10405197 2280 .l))) 10450800 1183 (.n (.n (.n (.n .l 10464317 921 .l)
  10485760 170 .l) 10492181 2356 (.n .l 10560849 1930 .l)) 10572294 1553 (.n (.n (.n .l 10587920
  2164 .l) 10599940 2037 .l) 10616216 989 (.n .l 10642657 2294 .l))))))

def bechTree0101 : KTree := .n bechTree01010 9444991 2354 bechTree01011

def bechTree010 : KTree := .n bechTree0100 8363890 239 bechTree0101

def bechTree01100 : KTree := (.n (.n (.n (.n (.n (.n (.n .l 10673839 2105 .l) 10673922 2516 .l)
  10683869 1598 (.n (.n .l 10696056 1712 .l) 10711379 1224 .l)) 10734981 1898 (.n (.n (.n .l
  10742762 370 .l) 10785733 1173 .l) 10818342 261 (.n .l 10829507 998 .l))) 10831929 2712 (.n (.n
  (.n (.n .l 10839655 1804 .l) 10850340 1378 .l) 10873006 402 (.n (.n .l 10896363 2683 .l)
  10906762 223 .l)) 10916936 1084 (.n (.n (.n .l 10922914 1606 .l) 10928248 853 .l) 10933592 592
  (.n .l 10933768 2429 .l)))) 10936417 641 (.n (.n (.n (.n (.n .l 10967360 1294 .l) 11020950 1964
  .l) 11032153 1885 (.n (.n .l 11080903 2755 .l) 11087214 1325 .l)) 11089690 2265 (.n (.n (.n .l
  11112145 1266 .l) 11117168 1838 .l) 11124888 2545 (.n .l 11128846 2133 .l))) 11129275 942 (.n
  (.n (.n (.n .l 11149095 804 .l) 11202436 911 .l) 11217269 249 (.n .l 11218827 1741 .l)) 11219903
  1414 (.n (.n (.n .l 11222524 342 .l) 11224467 2335 .l) 11231235 1681 (.n .l 11263848 1134
  .l))))) 11267388 2614 (.n (.n (.n (.n (.n (.n .l 11269406 2748 .l) 11275177 1356 .l) 11291371
  792 (.n (.n .l 11292230 738 .l) 11297200 2575 .l)) 11307996 492 (.n (.n (.n .l 11311040 1784 .l)
  11332684 2075 .l) 11341241 1993 (.n .l 11350053 732 .l))) 11353028 2798 (.n (.n (.n (.n .l
  11388982 2648 .l) 11393149 1457 .l) 11395547 1031 (.n .l 11400764 451 .l)) 11428689 1494 (.n (.n
  (.n .l 11436142 447 .l) 11442751 1213 .l) 11451905 2236 (.n .l 11462241 2473 .l)))) 11462587 518
  (.n (.n (.n (.n (.n .l 11465116 1505 .l) 11475299 2185 .l) 11479683 2391 (.n (.n .l 11503572 304
  .l) 11534336 171 .l)) 11565107 2358 (.n (.n (.n .l 11611868 1973 .l) 11619590 1874 .l) 11636226
  2586 (.n .l 11641646 771 .l))) 11643460 1365 (.n (.n (.n (.n .l 11646238 746 .l) 11686833 1171
  .l) 11742135 501 (.n .l 11743573 2060 .l)) 11749280 1763 (.n (.n (.n .l 11811295 1328 .l)
  11812969 2246 .l) 11814875 2767 (.n .l 11845126 1988 .l))))))

def bechTree01101 : KTree := (.n (.n (.n (.n (.n (.n (.n .l 11861940 2815 .l) 11866471 1931 .l)
  11884638 1543 (.n (.n .l 11901371 1813 .l) 11903142 2691 .l)) 11915486 273 (.n (.n (.n .l
  11922319 1022 .l) 11931628 1051 .l) 11935932 2627 (.n .l 11946231 463 .l))) 11956722 1447 (.n
  (.n (.n (.n .l 11961762 1855 .l) 11963011 2535 .l) 11976583 1256 (.n .l 11982879 2131 .l))
  11983372 959 (.n (.n (.n .l 12002879 392 .l) 12013748 1386 .l) 12041314 2166 (.n .l 12051107 978
  .l)))) 12052564 2035 (.n (.n (.n (.n (.n .l 12061155 851 .l) 12062181 645 .l) 12070474 1630 (.n
  (.n .l 12076353 1079 .l) 12078145 2418 .l)) 12078435 578 (.n (.n (.n .l 12117098 2518 .l)
  12117626 2086 .l) 12118779 562 (.n .l 12124671 440 .l))) 12130725 2468 (.n (.n (.n (.n .l
  12130892 542 .l) 12148407 1509 .l) 12150853 2231 (.n .l 12155128 1202 .l)) 12169972 922 (.n (.n
  (.n .l 12196709 2300 .l) 12225294 2668 .l) 12235403 216 (.n .l 12283099 820 .l))))) 12291367
  1500 (.n (.n (.n (.n (.n (.n .l 12326838 290 .l) 12365975 2620 .l) 12372029 2743 (.n (.n .l
  12379521 1151 .l) 12429067 360 .l)) 12433073 1899 (.n (.n (.n .l 12454927 1671 .l) 12459693 2328
  .l) 12463571 230 (.n .l 12466926 1744 .l))) 12473944 1438 (.n (.n (.n (.n .l 12479319 348 .l)
  12496591 2393 .l) 12515791 2180 (.n .l 12523506 1597 .l)) 12534211 1698 (.n (.n (.n .l 12541293
  1217 .l) 12579168 1311 .l) 12582912 172 (.n .l 12587745 2360 .l)))) 12634623 906 (.n (.n (.n (.n
  (.n .l 12651015 2168 .l) 12658943 2017 .l) 12662032 982 (.n (.n .l 12690125 1412 .l) 12691791
  323 .l)) 12694177 233 (.n (.n (.n .l 12697602 1694 .l) 12703221 1745 .l) 12712197 2317 (.n .l
  12729733 1239 .l))) 12732080 1703 (.n (.n (.n (.n .l 12740214 1588 .l) 12748926 1276 .l)
  12754928 2558 (.n .l 12770471 1843 .l)) 12771347 2113 (.n (.n (.n .l 12771890 947 .l) 12790269
  566 .l) 12806186 2089 (.n .l 12806683 2520 .l))))))

def bechTree0110 : KTree := .n bechTree01100 11850929 727 bechTree01101

def bechTree01110 : KTree := (.n (.n (.n (.n (.n (.n (.n .l 12825347 1960 .l) 12852661 2674 .l)
  12864492 205 (.n (.n .l 12884608 1776 .l) 12897128 2066 .l)) 12906127 488 (.n (.n (.n .l
  12945961 1998 .l) 12952358 719 .l) 12963487 2803 (.n .l 12985533 1800 .l))) 12986466 996 (.n (.n
  (.n (.n .l 13005609 2704 .l) 13008164 262 .l) 13035160 295 (.n .l 13074054 1153 .l)) 13091198
  1475 (.n (.n (.n .l 13113220 763 .l) 13124135 2570 .l) 13135566 1352 (.n .l 13136725 784 .l))))
  13141239 2422 (.n (.n (.n (.n (.n .l 13141392 583 .l) 13146999 1071 .l) 13147216 833 (.n (.n .l
  13152987 1604 .l) 13156441 665 .l)) 13175894 1470 (.n (.n (.n .l 13189746 1053 .l) 13196239 450
  .l) 13202211 2640 (.n .l 13208960 1299 .l))) 13243042 2190 (.n (.n (.n (.n .l 13251330 2394 .l)
  13282515 412 .l) 13303615 1403 (.n .l 13303891 429 .l)) 13308877 1206 (.n (.n (.n .l 13313209
  2478 .l) 13313746 516 .l) 13314297 2223 (.n .l 13319439 1529 .l))))) 13399357 831 (.n (.n (.n
  (.n (.n (.n .l 13453775 2595 .l) 13458164 2735 .l) 13462103 1139 (.n (.n .l 13482398 1932 .l)
  13492452 1566 .l)) 13506717 2754 (.n (.n (.n .l 13518347 2249 .l) 13522611 1329 .l) 13538566
  1900 (.n .l 13544876 380 .l))) 13608889 2275 (.n (.n (.n (.n .l 13631488 173 .l) 13661127 2362
  .l) 13689165 358 (.n .l 13692466 1901 .l)) 13706656 1282 (.n (.n (.n .l 13745906 1159 .l)
  13774600 1481 .l) 13802409 2635 (.n .l 13805017 1448 .l)))) 13806661 1025 (.n (.n (.n (.n (.n .l
  13821188 462 .l) 13840760 2262 .l) 13844994 1324 (.n (.n .l 13847425 2766 .l) 13866127 927 .l))
  13935163 2314 (.n (.n (.n .l 13937678 1672 .l) 13940231 246 .l) 13942928 1740 (.n .l 13944618
  1436 .l))) 13959140 329 (.n (.n (.n (.n .l 13989626 309 .l) 13998736 779 .l) 14003605 2591 (.n
  .l 14012195 1361 .l)) 14019804 755 (.n (.n (.n .l 14032299 597 .l) 14032574 2425 .l) 14036445
  669 (.n .l 14038835 1628 .l))))))

def bechTree01111 : KTree := (.n (.n (.n (.n (.n (.n (.n .l 14046667 839 .l) 14064566 2699 .l)
  14073564 274 (.n (.n .l 14080865 1809 .l) 14089518 1020 .l)) 14101035 985 (.n (.n (.n .l
  14104949 2170 .l) 14122671 2023 .l) 14145597 2281 (.n .l 14172079 1395 .l))) 14180930 390 (.n
  (.n (.n (.n .l 14194157 202 .l) 14210384 2661 .l) 14242047 2102 (.n .l 14242163 2522 .l))
  14253185 569 (.n (.n (.n .l 14257576 1933 .l) 14281404 1544 .l) 14292068 2601 (.n .l 14307518
  1122 .l)))) 14313431 2724 (.n (.n (.n (.n (.n .l 14326998 1881 .l) 14333769 1969 .l) 14358129
  2053 (.n (.n .l 14371552 1771 .l) 14372580 497 .l)) 14399310 2388 (.n (.n (.n .l 14414350 2179
  .l) 14420719 2786 .l) 14432662 1987 (.n .l 14436274 708 .l))) 14451138 426 (.n (.n (.n (.n .l
  14455332 1533 .l) 14474021 540 .l) 14474109 2467 (.n .l 14479626 1209 .l)) 14483133 2212 (.n (.n
  (.n .l 14485185 815 .l) 14530856 1254 .l) 14538219 2536 (.n .l 14542850 2119 .l))))) 14543237
  930 (.n (.n (.n (.n (.n (.n .l 14547829 1826 .l) 14553531 1246 .l) 14561803 1717 (.n (.n .l
  14578777 1591 .l) 14680064 174 .l)) 14709933 2364 (.n (.n (.n .l 14715364 2270 .l) 14720940 2778
  .l) 14745592 1314 (.n .l 14753125 1081 .l))) 14756687 845 (.n (.n (.n (.n .l 14759237 2408 .l)
  14759375 586 .l) 14760203 1629 (.n .l 14761809 657 .l)) 14796380 298 (.n (.n (.n .l 14831143 729
  .l) 14836310 2808 .l) 14837854 2004 (.n .l 14883493 1144 .l)))) 14885042 2745 (.n (.n (.n (.n
  (.n .l 14898841 2615 .l) 14916009 2110 .l) 14916075 2524 (.n (.n .l 14919468 552 .l) 14943064
  419 .l)) 14951761 2233 (.n (.n (.n .l 14968441 1521 .l) 14972771 1192 .l) 14973205 541 (.n .l
  14973457 2484 .l))) 15021118 1864 (.n (.n (.n (.n .l 15022999 1971 .l) 15061467 1934 .l)
  15069533 1563 (.n .l 15077486 353 .l)) 15090279 1902 (.n (.n (.n .l 15128374 905 .l) 15140414
  2703 .l) 15148794 1021 (.n .l 15162333 263 .l))))))

def bechTree0111 : KTree := .n bechTree01110 14043774 1060 bechTree01111

def bechTree011 : KTree := .n bechTree0110 12814217 1878 bechTree0111

def bechTree01 : KTree := .n bechTree010 10665863 573 bechTree011

def bechTree0 : KTree := .n bechTree00 6054950 2073 bechTree01

def bechTree10000 : KTree := (.n (.n (.n (.n (.n (.n (.n .l 15172831 783 .l) 15183124 1363 .l)
  15187018 2569 (.n (.n .l 15188029 747 .l) 15209994 1848 .l)) 15215311 2555 (.n (.n (.n .l
  15231739 1249 .l) 15233048 2125 .l) 15233109 952 (.n .l 15285146 2374 .l))) 15300602 2196 (.n
  (.n (.n (.n .l 15313023 2677 .l) 15324878 195 .l) 15358535 1165 (.n (.n .l 15369783 2639 .l)
  15377273 474 .l)) 15384341 1036 (.n (.n (.n .l 15392584 1467 .l) 15432081 2295 .l) 15443257 343
  (.n .l 15449069 254 .l)))) 15449114 1691 (.n (.n (.n (.n (.n .l 15453443 1437 .l) 15462000 2307
  .l) 15466303 1730 (.n (.n .l 15490496 1304 .l) 15514779 1495 .l)) 15535727 968 (.n (.n (.n .l
  15541590 2029 .l) 15559146 2172 .l) 15610828 822 (.n .l 15633391 1706 .l))) 15648520 1586 (.n
  (.n (.n (.n .l 15656400 1221 .l) 15670848 1775 .l) 15674969 499 (.n .l 15684979 2069 .l))
  15700216 385 (.n (.n (.n .l 15718966 1387 .l) 15728640 175 .l) 15734155 2366 (.n .l 15763562
  2050 .l))))) 15765042 490 (.n (.n (.n (.n (.n (.n .l 15781408 1780 .l) 15801778 470 .l) 15814946
  1040 (.n (.n .l 15822525 2644 .l) 15824583 1453 .l)) 15853037 1935 (.n (.n (.n .l 15858437 1549
  .l) 15881790 312 .l) 15911406 1228 (.n .l 15914279 1585 .l))) 15925076 1720 (.n (.n (.n (.n .l
  15926805 2301 .l) 15958729 420 .l) 15959266 517 (.n .l 15959509 2489 .l)) 15963556 1191 (.n (.n
  (.n .l 15976786 1525 .l) 15987477 2226 .l) 15993650 2621 (.n .l 15998353 2738 .l)))) 15999052
  1129 (.n (.n (.n (.n (.n .l 16053728 1289 .l) 16058575 196 .l) 16081050 2658 (.n (.n .l 16091718
  924 .l) 16200152 1833 .l)) 16210861 1275 (.n (.n (.n .l 16212180 2541 .l) 16218121 2123 .l)
  16219106 937 (.n .l 16221648 1802 .l))) 16226341 275 (.n (.n (.n (.n .l 16248481 2708 .l)
  16249782 997 .l) 16267603 1903 (.n .l 16276623 379 .l)) 16291670 2201 (.n (.n (.n .l 16302038
  2376 .l) 16339693 1501 .l) 16359804 2081 (.n .l 16360067 2526 .l))))))

def bechTree10001 : KTree := (.n (.n (.n (.n (.n (.n (.n .l 16387321 1354 .l) 16399205 739 .l)
  16405496 2588 (.n (.n .l 16411930 788 .l) 16453972 967 .l)) 16472728 2174 (.n (.n (.n .l
  16478982 2027 .l) 16492070 2793 .l) 16493235 722 (.n .l 16505825 2009 .l))) 16527201 1863 (.n
  (.n (.n (.n .l 16531421 1962 .l) 16554547 1163 .l) 16587430 1379 (.n .l 16604777 411 .l))
  16633008 2774 (.n (.n (.n .l 16640841 1343 .l) 16645783 2241 .l) 16689380 1413 (.n .l 16692558
  2308 .l)))) 16695115 225 (.n (.n (.n (.n (.n .l 16699414 1677 .l) 16706138 1759 .l) 16708498 349
  (.n (.n .l 16728112 806 .l) 16756212 600 .l)) 16756492 2407 (.n (.n (.n .l 16760035 1605 .l)
  16764012 1074 .l) 16765653 661 (.n .l 16769748 843 .l))) 16777216 176 (.n (.n (.n (.n .l
  16801723 2345 .l) 16846090 414 .l) 16869978 1389 (.n .l 16883272 724 .l)) 16886586 2794 (.n (.n
  (.n .l 16907964 1999 .l) 16909548 2315 .l) 16910978 1749 (.n .l 16915659 1431 .l))))) 16922655
  1665 (.n (.n (.n (.n (.n (.n .l 16924763 252 .l) 16933652 324 .l) 16944496 382 (.n (.n .l
  16953576 1904 .l) 16974826 427 .l)) 16994548 1522 (.n (.n (.n .l 16997419 1190 .l) 16999026 2228
  .l) 17002705 535 (.n .l 17002898 2479 .l))) 17024848 203 (.n (.n (.n (.n .l 17026402 2673 .l)
  17062349 2505 .l) 17062776 2108 (.n .l 17064581 550 .l)) 17078149 826 (.n (.n (.n .l 17109504
  1290 .l) 17156905 307 .l) 17179658 2139 (.n .l 17180337 938 .l)))) 17190734 2529 (.n (.n (.n (.n
  (.n .l 17200531 1834 .l) 17202305 1278 .l) 17213047 1537 (.n (.n .l 17219073 1936 .l) 17249239
  749 .l)) 17249487 1351 (.n (.n (.n .l 17250995 2584 .l) 17267394 782 .l) 17296168 1179 (.n .l
  17326239 1015 .l))) 17329047 264 (.n (.n (.n (.n .l 17330565 1799 .l) 17332828 2702 .l) 17339366
  1441 (.n .l 17340468 479 .l)) 17348945 1029 (.n (.n (.n .l 17365572 2638 .l) 17416484 1959 .l)
  17428444 1862 (.n .l 17447009 1476 .l))))))

def bechTree1000 : KTree := .n bechTree10000 16380496 551 bechTree10001

def bechTree10010 : KTree := (.n (.n (.n (.n (.n (.n (.n .l 17480690 658 .l) 17481933 1623 .l)
  17485806 859 (.n (.n .l 17493518 595 .l) 17493629 2406 .l)) 17505209 2740 (.n (.n (.n .l
  17516020 2596 .l) 17521213 1130 .l) 17549638 1593 (.n .l 17551884 1245 .l))) 17552462 1715 (.n
  (.n (.n (.n .l 17613119 2390 .l) 17620063 2191 .l) 17658034 2276 (.n (.n .l 17680026 920 .l)
  17703712 1774 .l)) 17708852 487 (.n (.n (.n .l 17712551 2065 .l) 17762378 1333 .l) 17769189 2783
  (.n .l 17782211 2268 .l)))) 17804526 966 (.n (.n (.n (.n (.n .l 17818234 2043 .l) 17825235 2153
  .l) 17825792 177 (.n (.n .l 17841821 2347 .l) 17876334 1982 .l)) 17888387 1865 (.n (.n (.n .l
  17902428 1181 .l) 17930079 510 .l) 17930430 2054 (.n .l 17953600 1781 .l))) 17964283 1320 (.n
  (.n (.n (.n .l 17965744 2243 .l) 17986041 2771 .l) 17992247 1937 (.n .l 18000943 1559 .l))
  18027214 2645 (.n (.n (.n .l 18032383 467 .l) 18037353 1463 .l) 18044774 1049 (.n .l 18066122
  1381 .l))))) 18072475 388 (.n (.n (.n (.n (.n (.n .l 18089589 861 .l) 18105637 1615 .l) 18110070
  662 (.n (.n .l 18116788 1087 .l) 18117684 2409 .l)) 18118197 577 (.n (.n (.n .l 18121339 428 .l)
  18124070 527 .l) 18124374 2466 (.n .l 18134070 2239 .l))) 18136812 1193 (.n (.n (.n (.n .l
  18153439 1526 .l) 18157366 2286 .l) 18211961 810 (.n .l 18242379 289 .l)) 18292711 1736 (.n (.n
  (.n .l 18298303 334 .l) 18302205 227 .l) 18306067 1687 (.n .l 18309074 2316 .l)))) 18315564 1423
  (.n (.n (.n (.n (.n .l 18325749 1697 .l) 18340713 1594 .l) 18349618 1236 (.n (.n .l 18369795
  1986 .l) 18378570 2811 .l)) 18381532 735 (.n (.n (.n .l 18386521 1822 .l) 18387651 2709 .l)
  18393199 284 (.n .l 18396627 1007 .l))) 18416981 2551 (.n (.n (.n (.n .l 18426907 2141 .l)
  18427142 955 .l) 18435543 1252 (.n .l 18436673 1851 .l)) 18461653 969 (.n (.n (.n .l 18461738
  2045 .l) 18468513 2155 .l) 18518791 789 (.n .l 18519330 1374 .l))))))

def bechTree10011 : KTree := (.n (.n (.n (.n (.n (.n (.n .l 18535681 2573 .l) 18618463 2606 .l)
  18622106 2751 (.n (.n .l 18637012 1147 .l) 18661777 356 .l)) 18664412 1905 (.n (.n (.n .l
  18693363 2178 .l) 18695539 2392 .l) 18725408 1307 (.n .l 18757625 553 .l))) 18768549 2507 (.n
  (.n (.n (.n .l 18768813 2083 .l) 18783210 909 .l) 18810247 2662 (.n .l 18815313 204 .l))
  18863639 1486 (.n (.n (.n .l 18874368 178 .l) 18889207 2349 .l) 18924096 1281 (.n .l 18957700
  1488 .l)))) 18979372 2251 (.n (.n (.n (.n (.n .l 18981121 1318 .l) 18982356 2759 .l) 19065837
  318 (.n (.n .l 19081135 1058 .l) 19088634 666 .l)) 19090205 1614 (.n (.n (.n .l 19095121 606 .l)
  19095503 2424 .l) 19101937 855 (.n .l 19109777 984 .l))) 19111486 2157 (.n (.n (.n (.n .l
  19132371 2039 .l) 19149089 387 .l) 19156819 1405 (.n .l 19180093 2509 .l)) 19180283 2091 (.n (.n
  (.n .l 19197012 568 .l) 19213007 1121 .l) 19225250 2608 (.n .l 19227135 2722 .l))))) 19245024
  1777 (.n (.n (.n (.n (.n (.n .l 19258300 2070 .l) 19265506 508 .l) 19269619 2785 (.n (.n .l
  19274955 2005 .l) 19297097 706 .l)) 19321204 819 (.n (.n (.n .l 19335769 1231 .l) 19339537 1726
  .l) 19359800 1599 (.n .l 19403673 2309 .l))) 19406920 1734 (.n (.n (.n (.n .l 19416071 1668 .l)
  19417367 235 .l) 19427170 336 (.n .l 19428101 1422 .l)) 19434824 785 (.n (.n (.n .l 19449054
  2587 .l) 19457134 765 .l) 19461909 1372 (.n .l 19468107 2705 .l)))) 19476276 1820 (.n (.n (.n
  (.n (.n .l 19484014 265 .l) 19492359 1006 .l) 19508890 2288 (.n (.n .l 19542194 355 .l) 19556233
  1906 .l)) 19582953 1175 (.n (.n (.n .l 19599184 2641 .l) 19611896 1444 .l) 19612726 1044 (.n .l
  19619970 455 .l))) 19650643 923 (.n (.n (.n (.n .l 19661025 421 .l) 19663746 1530 .l) 19672854
  526 (.n .l 19672890 2485 .l)) 19675269 1208 (.n (.n (.n .l 19689434 2210 .l) 19701252 1251 .l)
  19706881 2135 (.n .l 19707094 929 .l))))))

def bechTree1001 : KTree := .n bechTree10010 18532495 741 bechTree10011

def bechTree100 : KTree := .n bechTree1000 17473981 1076 bechTree1001

def bechTree10100 : KTree := (.n (.n (.n (.n (.n (.n (.n .l 19724913 2532 .l) 19815026 197 .l)
  19822760 2678 (.n (.n .l 19838926 1540 .l) 19846724 1938 .l)) 19876272 1980 (.n (.n (.n .l
  19881067 1880 .l) 19904775 2197 .l) 19909031 2378 (.n .l 19922944 179 .l))) 19945681 2351 (.n
  (.n (.n (.n .l 19966465 1032 .l) 19979849 459 .l) 19982298 2634 (.n (.n .l 19982711 1458 .l)
  20020111 300 .l)) 20042014 2298 (.n (.n (.n .l 20055817 2618 .l) 20058150 1136 .l) 20077788 2729
  (.n .l 20087923 194 .l)))) 20099149 2657 (.n (.n (.n (.n (.n .l 20158700 1840 .l) 20164434 1273
  .l) 20164714 2546 (.n (.n .l 20167696 2129 .l) 20168545 944 .l)) 20192445 1907 (.n (.n (.n .l
  20216915 377 .l) 20229106 1498 .l) 20258614 757 (.n .l 20261740 2574 .l))) 20272888 1349 (.n (.n
  (.n (.n .l 20276365 778 .l) 20285610 983 .l) 20294988 2159 (.n .l 20298115 2033 .l)) 20334388
  1879 (.n (.n (.n .l 20336122 1957 .l) 20352963 1397 .l) 20381616 409 (.n .l 20423304 803 .l)))))
  20474464 1296 (.n (.n (.n (.n (.n (.n .l 20481315 910 .l) 20549270 285 .l) 20560715 1014 (.n (.n
  .l 20566248 1797 .l) 20572116 2698 .l)) 20580005 2049 (.n (.n (.n .l 20600713 485 .l) 20608896
  1770 .l) 20626838 1554 (.n .l 20636274 1939 .l))) 20653671 1222 (.n (.n (.n (.n .l 20671914 1708
  .l) 20675095 1596 .l) 20676976 418 (.n .l 20685993 1534 .l)) 20691358 2217 (.n (.n (.n .l
  20697342 2488 .l) 20697825 534 .l) 20699714 1207 (.n .l 20713373 1169 .l)))) 20755888 1339 (.n
  (.n (.n (.n (.n .l 20770143 2260 .l) 20772552 2763 .l) 20780770 1430 (.n (.n .l 20785163 1682
  .l) 20788525 1755 .l)) 20789705 346 (.n (.n (.n .l 20793511 2306 .l) 20794801 244 .l) 20818302
  670 (.n .l 20820330 849 .l))) 20825478 2423 (.n (.n (.n (.n .l 20825706 588 .l) 20827893 1622
  .l) 20838054 1065 (.n .l 20860395 2372 .l)) 20863403 2200 (.n (.n (.n .l 20877653 2511 .l)
  20877870 2100 .l) 20887848 567 (.n .l 20944861 713 .l))))))

def bechTree10101 : KTree := (.n (.n (.n (.n (.n (.n (.n .l 20956035 2800 .l) 20971520 180 .l)
  20984323 2337 (.n (.n .l 21019502 808 .l) 21102120 926 .l)) 21103916 1547 (.n (.n (.n .l
  21121675 1940 .l) 21147407 2327 .l) 21156547 251 (.n .l 21158454 1754 .l))) 21160567 1420 (.n
  (.n (.n (.n .l 21160966 1675 .l) 21167057 325 .l) 21175081 2145 (.n .l 21192473 979 .l))
  21199144 2019 (.n (.n (.n .l 21209072 1148 .l) 21220885 2737 .l) 21233233 2597 (.n .l 21261762
  2277 .l)))) 21269947 1875 (.n (.n (.n (.n (.n .l 21286949 1976 .l) 21306494 2107 .l) 21307172
  2497 (.n (.n .l 21330478 563 .l) 21367699 1589 .l)) 21382799 1232 (.n (.n (.n .l 21392089 1705
  .l) 21408142 2758 .l) 21420764 1338 (.n .l 21424957 2267 .l))) 21446410 1908 (.n (.n (.n (.n .l
  21460724 365 .l) 21464092 2115 .l) 21464927 956 (.n .l 21469355 1261 .l)) 21472537 2539 (.n (.n
  (.n .l 21479913 1852 .l) 21555115 1477 .l) 21570218 1155 (.n .l 21594332 439 .l))))) 21606775
  1203 (.n (.n (.n (.n (.n (.n .l 21612305 1506 .l) 21622242 2482 .l) 21622399 524 (.n (.n .l
  21625122 2225 .l) 21635948 266 .l)) 21640283 2713 (.n (.n (.n .l 21655022 1816 .l) 21657766 1004
  .l) 21672646 2194 (.n .l 21680166 2375 .l))) 21700680 1380 (.n (.n (.n (.n .l 21722460 397 .l)
  21727905 297 .l) 21767926 2687 (.n .l 21789972 215 .l)) 21795442 1368 (.n (.n (.n .l 21804278
  793 .l) 21806508 740 .l) 21817161 2590 (.n .l 21826864 2419 .l)))) 21827225 585 (.n (.n (.n (.n
  (.n .l 21832921 835 .l) 21833872 1073 .l) 21844580 1612 (.n (.n .l 21849282 642 .l) 21861041 504
  .l)) 21867168 1785 (.n (.n (.n .l 21888152 2079 .l) 21894784 1308 .l) 21928795 2002 (.n .l
  21946442 721 .l))) 21951144 2812 (.n (.n (.n (.n .l 21992659 1451 .l) 22000709 2649 .l) 22007153
  454 (.n .l 22013855 1038 .l)) 22020096 181 (.n (.n (.n .l 22041381 2339 .l) 22061845 208 .l)
  22081043 2664 (.n .l 22087931 2571 .l))))))

def bechTree1010 : KTree := .n bechTree10100 20950900 2008 bechTree10101

def bechTree10110 : KTree := (.n (.n (.n (.n (.n (.n (.n .l 22103796 748 .l) 22109491 770 .l)
  22136978 824 (.n (.n .l 22159745 2056 .l) 22164186 481 .l)) 22182592 1762 (.n (.n (.n .l
  22192984 907 .l) 22251846 646 .l) 22255266 603 (.n .l 22255481 2428 .l))) 22271884 1620 (.n (.n
  (.n (.n .l 22277442 837 .l) 22280601 1082 .l) 22284712 1042 (.n .l 22297948 1469 .l)) 22305999
  2626 (.n (.n (.n .l 22311866 458 .l) 22324218 2607 .l) 22324505 1133 (.n .l 22344502 2746 .l))))
  22358107 2147 (.n (.n (.n (.n (.n .l 22359928 2021 .l) 22364194 988 .l) 22417268 1565 (.n (.n .l
  22445757 1941 .l) 22462112 1293 .l)) 22480094 730 (.n (.n (.n .l 22489316 2015 .l) 22492888 2797
  .l) 22513552 1428 (.n .l 22513674 1693 .l))) 22523258 335 (.n (.n (.n (.n .l 22531923 1735 .l)
  22533733 228 .l) 22541361 2320 (.n .l 22551235 315 .l)) 22580237 2117 (.n (.n (.n .l 22580456
  941 .l) 22587901 1271 .l) 22603323 1837 (.n .l 22605570 2557 .l))))) 22624789 375 (.n (.n (.n
  (.n (.n (.n .l 22627390 1909 .l) 22657997 407 .l) 22667480 1388 (.n (.n .l 22682044 1590 .l)
  22683234 1723 .l)) 22702769 1241 (.n (.n (.n .l 22712882 1793 .l) 22719978 1012 .l) 22731972
  2690 (.n .l 22732948 286 .l))) 22762090 2207 (.n (.n (.n (.n .l 22762602 2377 .l) 22781006 2244
  .l) 22793837 1319 (.n .l 22805138 2762 .l)) 22811206 2287 (.n (.n (.n .l 22874589 1487 .l)
  22910692 1884 .l) 22926447 1953 (.n .l 22937933 432 .l)))) 22942246 2495 (.n (.n (.n (.n (.n .l
  22942600 532 .l) 22949734 2234 .l) 22959024 1212 (.n (.n .l 22964282 1510 .l) 23012428 2499 .l))
  23012523 2084 (.n (.n (.n .l 23015250 572 .l) 23061214 1157 .l) 23068672 182 (.n .l 23090255
  2341 .l))) 23114730 2289 (.n (.n (.n (.n .l 23171900 2680 .l) 23191606 217 .l) 23215628 1869 (.n
  .l 23222449 1955 .l)) 23264671 801 (.n (.n (.n .l 23271716 2589 .l) 23282556 774 .l) 23286184
  1347 (.n .l 23292437 756 .l))))))

def bechTree10111 : KTree := (.n (.n (.n (.n (.n (.n (.n .l 23332459 1167 .l) 23368646 847 .l)
  23370698 650 (.n (.n .l 23375490 1063 .l) 23379074 2413 .l)) 23379654 580 (.n (.n (.n .l
  23386548 1621 .l) 23456980 2501 .l) 23457277 2092 (.n .l 23459071 557 .l))) 23473760 1766 (.n
  (.n (.n (.n .l 23482983 483 .l) 23487107 2072 .l) 23495639 441 (.n .l 23501927 1514 .l))
  23507384 533 (.n (.n (.n .l 23507786 2472 .l) 23516633 1197 .l) 23524490 2215 (.n .l 23584993
  925 .l)))) 23602386 2252 (.n (.n (.n (.n (.n .l 23604927 2782 .l) 23622551 1321 .l) 23629241
  1429 (.n (.n .l 23631902 1678 .l) 23640186 2329 .l)) 23649167 236 (.n (.n (.n .l 23654652 1737
  .l) 23656359 337 .l) 23661899 711 (.n .l 23682657 2807 .l))) 23689516 1992 (.n (.n (.n (.n .l
  23713694 2184 .l) 23713982 2395 .l) 23729301 1550 (.n .l 23732942 1942 .l)) 23764698 1218 (.n
  (.n (.n .l 23766918 1700 .l) 23767789 1587 .l) 23790997 267 (.n .l 23802719 1795 .l)))))
  23806284 2694 (.n (.n (.n (.n (.n (.n .l 23819838 1013 .l) 23840448 1303 .l) 23862008 1055 (.n
  (.n .l 23868871 478 .l) 23871825 2630 .l)) 23873485 1454 (.n (.n (.n .l 23898725 292 .l)
  23923524 1847 .l) 23924774 2542 (.n .l 23925783 2127 .l))) 23926072 951 (.n (.n (.n (.n .l
  23951918 1264 .l) 23966803 2727 .l) 23978247 2609 (.n .l 23981826 1143 .l)) 23987521 1396 (.n
  (.n (.n .l 24004983 400 .l) 24077414 973 .l) 24081537 2031 (.n .l 24082628 2149 .l)))) 24103734
  368 (.n (.n (.n (.n (.n .l 24111211 1910 .l) 24117248 183 .l) 24130921 2343 (.n (.n .l 24156689
  2790 .l) 24169107 1989 .l)) 24177119 716 (.n (.n (.n .l 24183366 446 .l) 24191694 2220 .l)
  24195916 1518 (.n .l 24196894 1186 .l))) 24202319 525 (.n (.n (.n (.n .l 24202382 2469 .l)
  24217559 362 .l) 24220511 1911 (.n .l 24255494 2121 .l)) 24256143 934 (.n (.n (.n .l 24259734
  1830 .l) 24267640 1258 .l) 24271421 2552 (.n .l 24299039 1161 .l))))))

def bechTree1011 : KTree := .n bechTree10110 23304782 1489 bechTree10111

def bechTree101 : KTree := .n bechTree1010 22098847 1345 bechTree1011

def bechTree10 : KTree := .n bechTree100 19709758 1825 bechTree101

def bechTree11000 : KTree := (.n (.n (.n (.n (.n (.n (.n .l 24350307 817 .l) 24427921 904 .l)
  24466337 2259 (.n (.n .l 24471334 1332 .l) 24477091 2770 .l)) 24540216 1499 (.n (.n (.n .l
  24556260 1227 .l) 24557762 1584 .l) 24564541 1718 (.n .l 24611596 466 .l))) 24619483 2653 (.n
  (.n (.n (.n .l 24636994 1464 .l) 24638671 1027 .l) 24655666 2181 (.n (.n .l 24665330 2389 .l)
  24693870 2299 .l)) 24715985 2025 (.n (.n (.n .l 24726454 2151 .l) 24738653 962 .l) 24756122 2063
  (.n .l 24769036 506 .l)))) 24772096 1789 (.n (.n (.n (.n (.n .l 24782539 2402 .l) 24782589 598
  .l) 24795741 841 (.n (.n .l 24796252 1613 .l) 24802894 654 .l)) 24805259 1068 (.n (.n (.n .l
  24807792 2732 .l) 24820908 2619 .l) 24827371 1126 (.n .l 24847699 1858 .l))) 24861947 1978 (.n
  (.n (.n (.n .l 24879986 1005 .l) 24881619 2717 .l) 24888941 287 (.n .l 24890499 1818 .l))
  24938470 394 (.n (.n (.n .l 24954321 1404 .l) 24985143 222 .l) 24992729 2671 (.n .l 25010444 347
  .l))))) 25026345 243 (.n (.n (.n (.n (.n (.n .l 25027396 2334 .l) 25027993 1748 .l) 25028702
  1421 (.n (.n .l 25031698 1688 .l) 25040632 1943 .l)) 25042637 1560 (.n (.n (.n .l 25071949 764
  .l) 25078457 797 .l) 25096261 1370 (.n .l 25097878 2568 .l))) 25115143 310 (.n (.n (.n (.n .l
  25141635 546 .l) 25154856 2099 .l) 25155516 2503 (.n .l 25165824 184 .l)) 25174242 2361 (.n (.n
  (.n .l 25206884 2204 .l) 25223972 2397 .l) 25245655 916 (.n .l 25287055 401 .l)))) 25288567 1407
  (.n (.n (.n (.n (.n .l 25301294 2169 .l) 25317847 2018 .l) 25324041 965 (.n (.n .l 25329807 442
  .l) 25338554 1189 .l)) 25348269 520 (.n (.n (.n .l 25348443 2492 .l) 25350619 2238 .l) 25360926
  1531 (.n .l 25366467 1739 .l))) 25371652 1685 (.n (.n (.n (.n .l 25379002 1416 .l) 25383582 326
  .l) 25384458 2330 (.n .l 25387106 242 .l)) 25439337 1710 (.n (.n (.n .l 25456101 1569 .l)
  25459466 1223 .l) 25470318 2580 (.n .l 25471528 767 .l))))))

def bechTree11001 : KTree := (.n (.n (.n (.n (.n (.n (.n .l 25492668 1360 .l) 25497813 1265 .l)
  25501006 1839 (.n (.n .l 25508585 2549 .l) 25519119 2114 .l)) 25519469 943 (.n (.n (.n .l
  25528775 2405 .l) 25529097 590 .l) 25535643 667 (.n .l 25539559 1086 .l))) 25540745 834 (.n (.n
  (.n (.n .l 25551039 1608 .l) 25580499 549 .l) 25588820 2098 (.n .l 25589055 2521 .l)) 25597630
  452 (.n (.n (.n .l 25598085 1461 .l) 25601517 1043 .l) 25610086 2633 (.n .l 25627186 1861 .l))))
  25649958 1968 (.n (.n (.n (.n (.n .l 25664256 1295 .l) 25704184 218 .l) 25705283 2669 (.n (.n .l
  25726063 1323 .l) 25734454 2258 .l)) 25735443 2756 (.n (.n (.n .l 25767968 1769 .l) 25769968
  2061 .l) 25787454 496 (.n .l 25799180 1912 .l))) 25811800 369 (.n (.n (.n (.n .l 25891186 2012
  .l) 25902135 2799 .l) 25903980 734 (.n .l 25938555 2278 .l)) 25970546 2697 (.n (.n (.n .l
  25971027 1808 .l) 25972932 1000 .l) 25976392 268 (.n .l 26005075 823 .l))))) 26045497 302 (.n
  (.n (.n (.n (.n (.n .l 26106924 1154 .l) 26121441 2750 .l) 26130334 2598 (.n (.n .l 26146215
  1135 .l) 26158805 1478 .l)) 26207688 1557 (.n (.n (.n .l 26211093 1944 .l) 26214400 185 .l)
  26231236 2363 (.n .l 26296520 2193 .l))) 26306408 2387 (.n (.n (.n (.n .l 26372775 897 .l)
  26387149 2001 .l) 26388472 725 (.n .l 26409031 2814 .l)) 26416926 395 (.n (.n (.n .l 26419175
  1399 .l) 26457599 2284 .l) 26478471 2020 (.n .l 26485340 2171 .l)))) 26506546 970 (.n (.n (.n
  (.n (.n .l 26536185 221 .l) 26538918 2682 .l) 26542366 445 (.n (.n .l 26544031 2229 .l) 26555738
  528 .l)) 26556063 2481 (.n (.n (.n .l 26558589 1194 .l) 26563893 1535 .l) 26581214 1334 (.n .l
  26597957 2253 .l))) 26599951 2760 (.n (.n (.n (.n .l 26608693 332 .l) 26610996 2333 .l) 26614438
  1750 (.n .l 26617181 1424 .l)) 26626056 1667 (.n (.n (.n .l 26633412 237 .l) 26664021 489 .l)
  26665024 1778 (.n .l 26667753 2074 .l))))))

def bechTree1100 : KTree := .n bechTree11000 25479075 777 bechTree11001

def bechTree11010 : KTree := (.n (.n (.n (.n (.n (.n (.n .l 26726712 1913 .l) 26761012 1230 .l)
  26761426 1724 (.n (.n .l 26771402 1570 .l) 26778712 1156 .l)) 26816102 786 (.n (.n (.n .l
  26823388 2561 .l) 26825072 759 .l) 26828113 1353 (.n .l 26847682 2741 .l))) 26857294 1150 (.n
  (.n (.n (.n .l 26864181 2604 .l) 26878339 1259 .l) 26884764 1854 (.n .l 26897438 2116 .l))
  26898138 958 (.n (.n (.n .l 26898674 2531 .l) 26921123 1484 .l) 26940210 604 (.n .l 26940302
  2410 .l)))) 26954015 671 (.n (.n (.n (.n (.n .l 26960622 1077 .l) 26961239 1616 .l) 26964242 836
  (.n (.n .l 26986275 1945 .l) 26996624 1539 .l)) 27002543 554 (.n (.n (.n .l 27020417 2093 .l)
  27020887 2523 .l) 27035016 1008 (.n .l 27041200 280 .l))) 27045869 2706 (.n (.n (.n (.n .l
  27047567 1801 .l) 27076725 456 .l) 27078636 2642 (.n .l 27078922 1443 .l)) 27085786 1039 (.n (.n
  (.n .l 27114927 807 .l) 27136365 1866 .l) 27158380 1961 (.n .l 27196507 316 .l))))) 27210528
  1310 (.n (.n (.n (.n (.n (.n .l 27262976 186 .l) 27281070 2365 .l) 27297109 1124 (.n (.n .l
  27306184 2610 .l) 27324071 2728 .l)) 27354778 364 (.n (.n (.n .l 27360621 1914 .l) 27376005 1883
  .l) 27388850 1963 (.n .l 27413312 1284 .l))) 27437547 2058 (.n (.n (.n (.n .l 27440352 1782 .l)
  27442408 491 .l) 27490541 1166 (.n .l 27510076 2182 .l)) 27519932 2369 (.n (.n (.n .l 27548464
  1490 .l) 27583908 396 .l) 27589246 1391 (.n .l 27603570 2646 .l)))) 27610011 1456 (.n (.n (.n
  (.n (.n .l 27613322 1026 .l) 27618824 476 .l) 27627145 2666 (.n (.n .l 27634650 212 .l) 27665700
  1336 .l)) 27670050 2780 (.n (.n (.n .l 27681497 2245 .l) 27690455 2085 .l) 27690703 2525 (.n .l
  27712770 571 .l))) 27732254 919 (.n (.n (.n (.n .l 27761488 1946 .l) 27784305 1552 .l) 27829087
  1237 (.n .l 27839643 1575 .l)) 27844918 1699 (.n (.n (.n .l 27862281 1752 .l) 27864948 1425 .l)
  27869567 2324 (.n .l 27875356 1680 .l))))))

def bechTree11011 : KTree := (.n (.n (.n (.n (.n (.n (.n .l 27879726 229 .l) 27938045 291 .l)
  27996201 790 (.n (.n .l 28000102 1355 .l) 28007171 2583 .l)) 28016017 751 (.n (.n (.n .l
  28053398 846 .l) 28063221 1064 .l) 28063861 2427 (.n .l 28064598 579 .l))) 28072851 659 (.n (.n
  (.n (.n .l 28076911 1617 .l) 28086526 2788 .l) 28094061 712 (.n .l 28111621 1990 .l)) 28121058
  1803 (.n (.n (.n .l 28127845 2710 .l) 28139100 1009 .l) 28145841 269 (.n .l 28148612 436 .l))))
  28153706 529 (.n (.n (.n (.n (.n .l 28153843 2470 .l) 28156264 1523 .l) 28165652 1211 (.n (.n .l
  28171379 2216 .l) 28201334 987 .l)) 28204158 2030 (.n (.n (.n .l 28209859 2173 .l) 28215458 830
  .l) 28251219 2290 (.n .l 28282838 2544 .l))) 28301283 1828 (.n (.n (.n (.n .l 28308048 1260 .l)
  28308484 2126 .l) 28309258 932 (.n .l 28311552 187 .l)) 28321672 2367 (.n (.n (.n .l 28361478
  1270 .l) 28362189 2534 .l) 28373041 1845 (.n .l 28376085 2120 .l))))) 28376253 949 (.n (.n (.n
  (.n (.n (.n .l 28423494 1496 .l) 28452240 2187 .l) 28471280 2383 (.n (.n .l 28484156 2420 .l)
  28484461 593 .l)) 28489239 663 (.n (.n (.n .l 28493325 840 .l) 28501244 1059 .l) 28503687 1609
  (.n .l 28553062 1947 .l))) 28573225 1542 (.n (.n (.n (.n .l 28603502 898 .l) 28610401 1244 .l)
  28611981 1713 (.n .l 28630708 1572 .l)) 28655802 1995 (.n (.n (.n .l 28658425 707 .l) 28660878
  2805 .l) 28686489 1160 (.n .l 28715829 406 .l)))) 28719854 1383 (.n (.n (.n (.n (.n .l 28739273
  743 .l) 28745355 1362 .l) 28751025 2562 (.n (.n .l 28760556 781 .l) 28797911 2296 .l)) 28819388
  1141 (.n (.n (.n .l 28824452 2723 .l) 28833123 2616 .l) 28838446 2024 (.n .l 28852657 2175 .l)))
  28855885 980 (.n (.n (.n (.n .l 28877530 1876 .l) 28897272 1970 .l) 28919404 2685 (.n .l
  28931547 211 .l)) 28957855 305 (.n (.n (.n .l 28967445 435 .l) 28969527 2211 .l) 28970563 1527
  (.n .l 28976339 1204 .l))))))

def bechTree1101 : KTree := .n bechTree11010 27877096 338 bechTree11011

def bechTree110 : KTree := .n bechTree1100 26711993 363 bechTree1101

def bechTree11100 : KTree := (.n (.n (.n (.n (.n (.n (.n .l 28994205 521 .l) 29025120 1301 .l)
  29037994 2266 (.n (.n .l 29045141 1317 .l) 29058366 2768 .l)) 29100099 344 (.n (.n (.n .l
  29104705 2323 .l) 29110380 1733 .l) 29111312 1670 (.n .l 29117075 1417 .l))) 29126024 250 (.n
  (.n (.n (.n .l 29132926 564 .l) 29146370 2106 .l) 29146535 2527 (.n (.n .l 29170819 498 .l)
  29189248 1773 .l)) 29193458 2077 (.n (.n (.n .l 29199120 1001 .l) 29211465 281 .l) 29219578 2701
  (.n .l 29222974 1810 .l)))) 29275837 1054 (.n (.n (.n (.n (.n .l 29282499 464 .l) 29285112 2637
  .l) 29286932 1446 (.n (.n .l 29296217 1915 .l) 29305467 374 .l)) 29358942 814 (.n (.n (.n .l
  29360128 188 .l) 29379930 2353 .l) 29398446 1178 (.n .l 29430728 2261 .l))) 29440632 2781 (.n
  (.n (.n (.n .l 29449977 1316 .l) 29460839 2654 .l) 29466544 1471 (.n .l 29475835 477 .l))
  29489955 1048 (.n (.n (.n .l 29506250 1083 .l) 29512638 858 .l) 29518474 2416 (.n .l 29518750
  596 .l))))) 29520406 1619 (.n (.n (.n (.n (.n (.n .l 29522859 651 .l) 29546251 2279 .l) 29568433
  308 (.n (.n .l 29605382 1427 .l) 29608539 327 .l)) 29613943 1732 (.n (.n (.n .l 29618938 245 .l)
  29620253 1695 .l) 29621737 2310 (.n .l 29637998 731 .l))) 29648293 2809 (.n (.n (.n (.n .l
  29652117 1985 .l) 29665588 1849 .l) 29672473 2138 (.n .l 29672579 953 .l)) 29675710 2559 (.n (.n
  (.n .l 29684991 1250 .l) 29756475 2599 .l) 29765738 1145 (.n .l 29770061 2747 .l)))) 29806333
  2177 (.n (.n (.n (.n (.n .l 29815357 2380 .l) 29832018 2101 .l) 29832150 2513 (.n (.n .l
  29838200 560 .l) 29854908 198 .l)) 29872343 2659 (.n (.n (.n .l 29885369 422 .l) 29903499 2235
  .l) 29904870 1200 (.n .l 29906219 2465 .l))) 29906435 531 (.n (.n (.n (.n .l 29912571 1515 .l)
  29942456 805 .l) 29987582 1716 (.n .l 29994800 1581 .l)) 30011273 1226 (.n (.n (.n .l 30042197
  1872 .l) 30044711 1967 .l) 30052047 2051 (.n .l 30063008 1790 .l))))))

def bechTree11101 : KTree := (.n (.n (.n (.n (.n (.n (.n .l 30082975 1948 .l) 30099091 1567 .l)
  30119269 1398 (.n (.n .l 30122457 386 .l) 30154972 354 .l)) 30156270 1916 (.n (.n (.n .l
  30187392 1305 .l) 30216037 914 .l) 30275871 1479 (.n .l 30280053 2718 .l))) 30283443 270 (.n (.n
  (.n (.n .l 30296317 1011 .l) 30299448 1807 .l) 30317054 976 (.n .l 30329477 2042 .l)) 30341076
  2161 (.n (.n (.n .l 30345623 798 .l) 30352467 758 .l) 30366209 1359 (.n .l 30374036 2578 .l))))
  30408704 189 (.n (.n (.n (.n (.n .l 30420092 2355 .l) 30457299 294 .l) 30476931 1128 (.n (.n .l
  30495120 2605 .l) 30506094 2736 .l)) 30564058 1917 (.n (.n (.n .l 30567485 376 .l) 30578470 2567
  .l) 30596875 766 (.n .l 30597202 773 .l))) 30604268 1366 (.n (.n (.n (.n .l 30634762 1887 .l)
  30635629 1974 .l) 30685088 1288 (.n .l 30757846 2068 .l)) 30763456 1765 (.n (.n (.n .l 30767568
  502 .l) 30784799 1582 .l) 30786487 1219 (.n .l 30795333 1702 .l))))) 30823898 1180 (.n (.n (.n
  (.n (.n (.n .l 30839825 1673 .l) 30842096 333 .l) 30844631 2305 (.n (.n .l 30853650 1753 .l)
  30858209 1419 .l)) 30864988 234 (.n (.n (.n .l 30879313 2188 .l) 30897777 2370 .l) 30938985 1485
  (.n .l 30967493 991 .l))) 30973141 2044 (.n (.n (.n (.n .l 30983334 2163 .l) 31020533 1406 .l)
  31027016 408 (.n .l 31035716 821 .l)) 31069460 1028 (.n (.n (.n .l 31077951 1449 .l) 31089133
  2629 .l) 31096112 465 (.n .l 31107215 2285 .l)))) 31135794 2676 (.n (.n (.n (.n (.n .l 31150781
  193 .l) 31166182 1832 .l) 31169189 2537 (.n (.n .l 31180201 1272 .l) 31181832 2140 .l)) 31182644
  936 (.n (.n (.n .l 31214152 1337 .l) 31220923 2250 .l) 31222116 2769 (.n .l 31233583 655 .l)))
  31234597 860 (.n (.n (.n (.n .l 31255491 1072 .l) 31256771 2431 .l) 31257509 582 (.n .l 31258622
  1611 .l)) 31262910 2515 (.n (.n (.n .l 31263623 2090 .l) 31268356 575 .l) 31302101 2792 (.n .l
  31311658 1996 .l))))))

def bechTree1110 : KTree := .n bechTree11100 30071227 495 bechTree11101

def bechTree11110 : KTree := (.n (.n (.n (.n (.n (.n (.n .l 31347221 903 .l) 31366577 1003 .l)
  31369956 1814 (.n (.n .l 31380811 282 .l) 31384042 2693 .l)) 31404969 1949 (.n (.n (.n .l
  31411403 1545 .l) 31425064 417 .l) 31431887 2224 (.n .l 31435503 2476 .l))) 31435764 523 (.n (.n
  (.n (.n .l 31436065 1215 .l) 31441616 1519 .l) 31457280 190 (.n .l 31468310 2357 .l)) 31491833
  2577 (.n (.n (.n .l 31496667 1364 .l) 31519722 742 .l) 31522333 769 (.n .l 31527124 2052 .l))))
  31529325 500 (.n (.n (.n (.n (.n .l 31538528 1761 .l) 31589956 1033 .l) 31603533 453 (.n (.n .l
  31607982 1466 .l) 31620211 2625 .l)) 31626297 2165 (.n (.n (.n .l 31629953 974 .l) 31639340 2038
  .l) 31676202 1562 (.n .l 31682522 1950 .l))) 31692514 2011 (.n (.n (.n (.n .l 31705452 2802 .l)
  31707247 717 .l) 31722869 313 (.n .l 31759646 383 .l)) 31781519 1918 (.n (.n (.n .l 31788622
  1579 .l) 31799260 1240 .l) 31809441 1721 (.n .l 31828901 2203 .l))))) 31849125 2384 (.n (.n (.n
  (.n (.n (.n .l 31852835 2291 .l) 31884538 1491 .l) 31916210 424 (.n (.n .l 31918532 522 .l)
  31918979 2491 .l)) 31927112 1198 (.n (.n (.n .l 31929997 1507 .l) 31934243 2221 .l) 31965222
  2517 (.n .l 31965905 2082 .l))) 31966633 558 (.n (.n (.n (.n .l 31986541 2611 .l) 31996683 2733
  .l) 31998104 1138 (.n .l 32067520 1298 .l)) 32080901 1690 (.n (.n (.n .l 32097837 339 .l)
  32100808 1418 .l) 32107164 2312 (.n .l 32110013 1751 .l)))) 32111542 226 (.n (.n (.n (.n (.n .l
  32117150 200 .l) 32138525 2660 .l) 32154697 812 (.n (.n .l 32182700 913 .l) 32212131 643 .l))
  32226520 1069 (.n (.n (.n .l 32234296 2414 .l) 32234433 601 .l) 32236705 854 (.n .l 32242118
  1610 .l))) 32300002 1870 (.n (.n (.n (.n .l 32307891 1972 .l) 32354671 1174 .l) 32380538 1279
  (.n .l 32396306 2134 .l)) 32397028 946 (.n (.n (.n .l 32400281 1842 .l) 32400769 2554 .l)
  32415218 415 (.n .l 32419948 1382 .l))))))

def bechTree11111 : KTree := (.n (.n (.n (.n (.n (.n (.n .l 32452682 271 .l) 32458341 1002 .l)
  32472162 2689 (.n (.n .l 32488777 2757 .l) 32496679 2242 .l)) 32503730 1335 (.n (.n (.n .l
  32505856 191 .l) 32524848 2359 .l) 32538915 431 (.n .l 32543079 2214 .l))) 32545190 1511 (.n (.n
  (.n (.n .l 32557455 1185 .l) 32568371 530 .l) 32568391 2486 (.n .l 32581420 1253 .l)) 32583578
  2540 (.n (.n (.n .l 32588875 1827 .l) 32594947 2128 .l) 32595283 931 (.n .l 32630752 1283 .l))))
  32680788 2269 (.n (.n (.n (.n (.n .l 32695043 1322 .l) 32697941 2761 .l) 32729740 1497 (.n (.n
  .l 32787209 2198 .l) 32800489 2398 .l)) 32805244 2032 (.n (.n (.n .l 32810827 2167 .l) 32816570
  961 .l) 32845114 848 (.n .l 32850289 2401 .l))) 32850938 587 (.n (.n (.n (.n .l 32860455 647 .l)
  32861649 1062 .l) 32865326 1618 (.n .l 32882877 1857 .l)) 32898809 1965 (.n (.n (.n .l 32943608
  2675 .l) 32952223 207 .l) 32988140 1951 (.n .l 32988530 1548 .l))))) 33004823 299 (.n (.n (.n
  (.n (.n (.n .l 33049820 900 .l) 33102818 1233 .l) 33102945 1576 (.n (.n .l 33106714 1707 .l)
  33129862 457 .l)) 33133817 2650 (.n (.n (.n .l 33154337 1452 .l) 33155187 1045 .l) 33164572 2787
  (.n .l 33170781 2006 .l))) 33174779 710 (.n (.n (.n (.n .l 33196475 1919 .l) 33214975 357 .l)
  33255707 1168 (.n .l 33281973 828 .l)) 33313635 389 (.n (.n (.n .l 33321212 1390 .l) 33329286
  345 .l) 33337762 2319 (.n .l 33338415 1426 .l)))) 33349848 1738 (.n (.n (.n (.n (.n .l 33351689
  1676 .l) 33357584 253 .l) 33360050 750 (.n (.n .l 33363928 794 .l) 33372214 1357 .l)) 33384779
  2564 (.n (.n (.n .l 33394901 545 .l) 33421828 2109 .l) 33422158 2519 (.n .l 33453735 2297 .l)))
  33470726 493 (.n (.n (.n (.n .l 33476045 2067 .l) 33484032 1786 .l) 33490472 2726 (.n .l
  33509062 2617 .l)) 33520241 1123 (.n (.n (.n .l 33526569 1010 .l) 33527037 2714 .l) 33551282 283
  (.n .l 33551445 1805 .l))))))

def bechTree1111 : KTree := .n bechTree11110 32443273 1812 bechTree11111

def bechTree111 : KTree := .n bechTree1110 31316474 720 bechTree1111

def bechTree11 : KTree := .n bechTree110 28993591 2475 bechTree111

def bechTree1 : KTree := .n bechTree10 24342240 1286 bechTree11

def bechTree : KTree := .n bechTree0 15170060 1811 bechTree1

end Torsion
