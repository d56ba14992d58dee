import Verif.Lemmas.Tm.Comp.Region2

/-! Units for the fans of region 2 (generated). -/

namespace If97.Tm

def sk0 : Scl :=
  ⟨1, 1, 3, 2,
   [(16, [(39, ⟨true, 17731742473213, 10000000000000000⟩), (38, ⟨true, 26752293438537, 1000000000000000⟩), (37, ⟨true, 82792824653457, 800000000000000⟩), (36, ⟨true, 194336749406583, 1000000000000000⟩), (33, ⟨true, 3668712819266097, 6400000000000000⟩)]),
    (15, [(38, ⟨true, 99097925010609, 2000000000000000000⟩), (37, ⟨true, 34108177529367, 80000000000000000⟩), (35, ⟨true, 638162991342351, 32000000000000000⟩), (32, ⟨true, 95784685587803151, 128000000000000000⟩), (12, ⟨true, 4003706540877216906801222517527, 68719476736000000000000000000⟩)]),
    (14, [(39, ⟨false, 20481737692309, 1000000000000000000000⟩), (38, ⟨false, 26322400370661, 40000000000000000000⟩), (36, ⟨true, 87149728544139, 800000000000000000⟩), (33, ⟨true, 2739932747806473, 160000000000000000⟩), (13, ⟨true, 2034695562217228949608957143843, 34359738368000000000000000⟩)]),
    (13, [(38, ⟨true, 236541928678101, 200000000000000000000000⟩), (37, ⟨false, 23023292134113, 800000000000000000000⟩), (36, ⟨false, 1302085063399689, 800000000000000000000⟩)]),
    (12, [(32, ⟨false, 50130580950464607, 1280000000000000000000⟩)]),
    (11, [(36, ⟨true, 451298694178647, 8000000000000000000000000⟩), (23, ⟨true, 182272492435318205391, 131072000000000000000⟩), (13, ⟨true, 149442611281272845087988663441, 4294967296000000000000⟩)]),
    (10, [(39, ⟨true, 5905956432427, 1000000000000000000000000000000⟩), (28, ⟨true, 2235915581049044847, 20480000000000000000000⟩), (18, ⟨true, 32999215969572920396083377, 33554432000000000000000⟩)]),
    (9, [(31, ⟨false, 73852002735971499, 256000000000000000000000000⟩), (12, ⟨true, 6177245346445988967883378329879, 343597383680000000000000⟩)]),
    (8, [(26, ⟨false, 3947885092970418303, 1024000000000000000000000⟩)]),
    (7, [(35, ⟨false, 421482091012047, 800000000000000000000000000000000⟩), (29, ⟨true, 604351581267511521, 102400000000000000000000000000⟩), (25, ⟨true, 47916641408640348159, 163840000000000000000000000⟩)]),
    (6, [(15, ⟨true, 1110204908562387763836565551, 107374182400000000000000000000000⟩), (5, ⟨false, 7676506068552549637254917672574902841, 112589990684262400000000000000⟩)]),
    (5, [(1, ⟨true, 52851177481098903140304465630604120572273, 14411518807585587200000000000000⟩)]),
    (4, [(21, ⟨false, 310971814375280243587821, 104857600000000000000000000000000000000000000⟩), (13, ⟨false, 191554006080594266849640408003, 429496729600000000000000000000000000⟩), (7, ⟨true, 104699607773040148329999883695767409, 87960930222080000000000000000000⟩)]),
    (3, [(20, ⟨true, 617746929278636996751717, 2097152000000000000000000000000000000000000000⟩)]),
    (2, [(3, ⟨false, 733209018450099463153057076523908301411, 90071992547409920000000000000000000⟩)]),
    (1, [(10, ⟨true, 51745491935125627493556092215827, 5497558138880000000000000000000000000000⟩)]),
    (0, [(17, ⟨false, 185778899845802125361283069, 67108864000000000000000000000000000000000000000000⟩), (9, ⟨false, 336856785371812726339889042978589, 549755813888000000000000000000000000000000⟩), (0, ⟨true, 44449346622754997498458182473248914882369, 2882303761517117440000000000000000000⟩)])],
   [(16, [(39, ⟨false, 0, 1⟩), (39, ⟨true, 8917431146179, 500000000000000⟩), (38, ⟨true, 27597608217819, 200000000000000⟩), (37, ⟨true, 194336749406583, 500000000000000⟩), (34, ⟨true, 3668712819266097, 1600000000000000⟩)]),
    (15, [(39, ⟨true, 33032641670203, 1000000000000000000⟩), (38, ⟨true, 11369392509789, 20000000000000000⟩), (36, ⟨true, 212720997114117, 4000000000000000⟩), (33, ⟨true, 223497599704874019, 64000000000000000⟩), (13, ⟨true, 12011119622631650720403667552581, 8589934592000000000000000000⟩)]),
    (14, [(39, ⟨false, 0, 1⟩), (39, ⟨false, 8774133456887, 20000000000000000000⟩), (37, ⟨true, 87149728544139, 400000000000000000⟩), (34, ⟨true, 2739932747806473, 40000000000000000⟩), (14, ⟨true, 4747622978506867549087566668967, 3435973836800000000000000⟩)]),
    (13, [(39, ⟨true, 78847309559367, 100000000000000000000000⟩), (38, ⟨false, 7674430711371, 200000000000000000000⟩), (37, ⟨false, 1302085063399689, 400000000000000000000⟩)]),
    (12, [(33, ⟨false, 116971355551084083, 640000000000000000000⟩)]),
    (11, [(37, ⟨true, 451298694178647, 4000000000000000000000000⟩), (24, ⟨true, 60757497478439401797, 4096000000000000000⟩), (14, ⟨true, 348699426322969971871973548029, 429496729600000000000⟩)]),
    (10, [(39, ⟨false, 0, 1⟩), (29, ⟨true, 8198357130513164439, 10240000000000000000000⟩), (19, ⟨true, 10999738656524306798694459, 671088640000000000000⟩)]),
    (9, [(32, ⟨false, 24617334245323833, 16000000000000000000000000⟩), (13, ⟨true, 18531736039337966903650134989637, 42949672960000000000000⟩)]),
    (8, [(27, ⟨false, 17107502069538479313, 512000000000000000000000⟩)]),
    (7, [(36, ⟨false, 140494030337349, 100000000000000000000000000000000⟩), (30, ⟨true, 201450527089170507, 5120000000000000000000000000⟩), (26, ⟨true, 111805496620160812371, 40960000000000000000000000⟩)]),
    (6, [(16, ⟨true, 10731980782769748383753466993, 53687091200000000000000000000000⟩), (6, ⟨false, 2558835356184183212418305890858300947, 1125899906842624000000000000⟩)]),
    (5, [(2, ⟨true, 1004172372140879159665784846981478290873187, 7205759403792793600000000000000⟩)]),
    (4, [(22, ⟨false, 103657271458426747862607, 2621440000000000000000000000000000000000000⟩), (14, ⟨false, 446959347521386622649160952007, 42949672960000000000000000000000000⟩), (8, ⟨true, 104699607773040148329999883695767409, 2748779069440000000000000000000⟩)]),
    (3, [(21, ⟨true, 4324228504950458977262019, 1048576000000000000000000000000000000000000000⟩)]),
    (2, [(4, ⟨false, 12953359325951757182370675018589046658261, 45035996273704960000000000000000000⟩)]),
    (1, [(11, ⟨true, 672691395156633157416229198805751, 2748779069440000000000000000000000000000⟩)]),
    (0, [(18, ⟨false, 805041899331809209898893299, 16777216000000000000000000000000000000000000000000⟩), (10, ⟨false, 112285595123937575446629680992863, 6871947673600000000000000000000000000000⟩), (1, ⟨true, 429677017353298309151762430574739510529567, 720575940379279360000000000000000000⟩)])]⟩

def sk1 : Scl :=
  ⟨1, 1, 21, 16,
   [(16, [(39, ⟨true, 17731742473213, 10000000000000000⟩), (38, ⟨true, 187266054069759, 8000000000000000⟩), (37, ⟨true, 4056848408019393, 51200000000000000⟩), (36, ⟨true, 66657505046457969, 512000000000000000⟩), (33, ⟨true, 431620394473837045953, 1677721600000000000000⟩)]),
    (15, [(38, ⟨true, 693685475074263, 16000000000000000000⟩), (37, ⟨true, 1671300698938983, 5120000000000000000⟩), (35, ⟨true, 1532229342212984751, 131072000000000000000⟩), (32, ⟨true, 78882807323036170383993, 268435456000000000000000⟩), (12, ⟨true, 10616752132214169657369775940598665316224301507741750031820727, 22300745198530623141535718272648361505980416000000000000000000⟩)]),
    (14, [(39, ⟨false, 20481737692309, 1000000000000000000000⟩), (38, ⟨false, 184256802594627, 320000000000000000000⟩), (36, ⟨true, 29892356890639677, 409600000000000000000⟩), (33, ⟨true, 322350347846683741977, 41943040000000000000000⟩), (13, ⟨true, 770780712037882242882633583793088946342554892835522919518949, 1393796574908163946345982392040522594123776000000000000000⟩)]),
    (13, [(38, ⟨true, 1655793500746707, 1600000000000000000000000⟩), (37, ⟨false, 1128141314571537, 51200000000000000000000⟩), (36, ⟨false, 446615176746093327, 409600000000000000000000⟩)]),
    (12, [(32, ⟨false, 41284689027688473842601, 2684354560000000000000000000⟩)]),
    (11, [(36, ⟨true, 154795452103275921, 4096000000000000000000000000⟩), (23, ⟨true, 6057449085851053411134410738918991, 36893488147419103232000000000000000⟩), (13, ⟨true, 56611654574337861971485074975768459389240800670337157249863, 174224571863520493293247799005065324265472000000000000⟩)]),
    (10, [(39, ⟨true, 5905956432427, 1000000000000000000000000000000⟩), (28, ⟨true, 4421135673498660370579443321, 175921860444160000000000000000000⟩), (18, ⟨true, 44254213010308223533318721823185169561106585239, 1267650600228229401496703205376000000000000000⟩)]),
    (9, [(31, ⟨false, 425742099224331233406699, 4294967296000000000000000000000000⟩), (12, ⟨true, 16380392027613830480769179169180778235104914529951382277156279, 111503725992653115707678591363241807529902080000000000000⟩)]),
    (8, [(26, ⟨false, 382506679858451021502510279321, 562949953421312000000000000000000000⟩)]),
    (7, [(35, ⟨false, 1011978500519924847, 3276800000000000000000000000000000000⟩), (29, ⟨true, 170714363402084052504843729, 109951162777600000000000000000000000000⟩), (25, ⟨true, 32498171776771692827482180034991, 720575940379279360000000000000000000000⟩)]),
    (6, [(15, ⟨true, 3574755175212077261597471235648233016247073187476457, 16615349947311448411297588253504307200000000000000000000000⟩), (5, ⟨false, 13805927813962479334957965349727448168877608263020285738723995307430672272898409, 160693804425899027554196209234116260252220299378279283530137600000000000000⟩)]),
    (5, [(1, ⟨true, 78278581709119374248128092859589800360797051739434897097209834828742685000308973048375511, 43135914667441023671467224139231409077819431076064915969765776398745600000000000000⟩)]),
    (4, [(21, ⟨false, 24813145823683928951731925822324827039821, 120892581961462917470617600000000000000000000000000000000000000⟩), (13, ⟨false, 72564238081699919956530780553722375183070767438050057621829, 17422457186352049329324779900506532426547200000000000000000000000000⟩), (7, ⟨true, 3842828256300162748013158825150143649126519580341575799195363660631522586609, 1961594292308337738698684194752395755031986076395010785280000000000000000000⟩)]),
    (3, [(20, ⟨true, 345039992398731637675323473836416975890019, 19342813113834066795298816000000000000000000000000000000000000000⟩)]),
    (2, [(3, ⟨false, 452297220502259588347734680982758782860649746954325025105239367589951387313252832277, 65820182292848241686198767302294020199309434625343194533944360960000000000000000000⟩)]),
    (1, [(10, ⟨true, 47064785164804213107796316671754384613864923062731081136770066261, 913438523331814323877303020447676887284957839360000000000000000000000000000⟩)]),
    (0, [(17, ⟨false, 1743995769452298866095706500209360620627834756781, 20282409603651670423947251286016000000000000000000000000000000000000000000⟩), (9, ⟨false, 2144701721706553252791983132579773155950901173151433594755117914589, 730750818665451459101842416358141509827966271488000000000000000000000000000000⟩), (0, ⟨true, 460841628162295663039929891588971559006174672892163643360742982482780470966668991794517681, 69017463467905637874347558622770254524511089721703865551625242237992960000000000000000000⟩)])],
   [(16, [(39, ⟨false, 0, 1⟩), (39, ⟨true, 8917431146179, 500000000000000⟩), (38, ⟨true, 193183257524733, 1600000000000000⟩), (37, ⟨true, 9522500720922567, 32000000000000000⟩), (34, ⟨true, 61660056353405292279, 52428800000000000000⟩)]),
    (15, [(39, ⟨true, 33032641670203, 1000000000000000000⟩), (38, ⟨true, 79585747568523, 160000000000000000⟩), (36, ⟨true, 72963302010142131, 2048000000000000000⟩), (33, ⟨true, 26294269107678723461331, 16777216000000000000000⟩), (13, ⟨true, 4550036628091786996015618260256570849810414931889321442208883, 348449143727040986586495598010130648530944000000000000000000⟩)]),
    (14, [(39, ⟨false, 0, 1⟩), (39, ⟨false, 8774133456887, 20000000000000000000⟩), (37, ⟨true, 4270336698662811, 25600000000000000000⟩), (34, ⟨true, 46050049692383391711, 1310720000000000000000⟩), (14, ⟨true, 256926904012627414294211194597696315447518297611840973172983, 17422457186352049329324779900506532426547200000000000000⟩)]),
    (13, [(39, ⟨true, 78847309559367, 100000000000000000000000⟩), (38, ⟨false, 53721014979597, 1600000000000000000000⟩), (37, ⟨false, 63802168106584761, 25600000000000000000000⟩)]),
    (12, [(33, ⟨false, 13761563009229491280867, 167772160000000000000000000⟩)]),
    (11, [(37, ⟨true, 22113636014753703, 256000000000000000000000000⟩), (24, ⟨true, 288449956469097781482590987567571, 144115188075855872000000000000000⟩), (14, ⟨true, 18870551524779287323828358325256153129746933556779052416621, 2177807148294006166165597487563316553318400000000000⟩)]),
    (10, [(39, ⟨false, 0, 1⟩), (29, ⟨true, 2315832971832631622684470311, 10995116277760000000000000000000⟩), (19, ⟨true, 2107343476681343977777081991580246169576504059, 3169126500570573503741758013440000000000000⟩)]),
    (9, [(32, ⟨false, 20273433296396725400319, 33554432000000000000000000000000⟩), (13, ⟨true, 7020168011834498777472505358220333529330677655693449547352691, 1742245718635204932932477990050653242654720000000000000⟩)]),
    (8, [(27, ⟨false, 236789849436183965692030172913, 35184372088832000000000000000000000⟩)]),
    (7, [(36, ⟨false, 48189452405710707, 51200000000000000000000000000000000⟩), (30, ⟨true, 8129255400099240595468749, 687194767360000000000000000000000000⟩), (26, ⟨true, 10832723925590564275827393344997, 22517998136852480000000000000000000000⟩)]),
    (6, [(16, ⟨true, 4936566670530963837444126944466607498626910592229393, 1038459371706965525706099265844019200000000000000000000000⟩), (6, ⟨false, 657425133998213301664665016653688008041790869667632654224952157496698679661829, 200867255532373784442745261542645325315275374222849104412672000000000000⟩)]),
    (5, [(2, ⟨true, 212470436067609730102061966333172315265020569007037577835283837392301573572267212559876387, 2695994666715063979466701508701963067363714442254057248110361024921600000000000000⟩)]),
    (4, [(22, ⟨false, 1181578372556377569130091705824991763801, 377789318629571617095680000000000000000000000000000000000000⟩), (14, ⟨false, 24188079360566639985510260184574125061023589146016685873943, 217780714829400616616559748756331655331840000000000000000000000000⟩), (8, ⟨true, 548975465185737535430451260735734807018074225763082257027909094375931798087, 7662477704329444291791735135751545918093695610918010880000000000000000000⟩)]),
    (3, [(21, ⟨true, 345039992398731637675323473836416975890019, 1208925819614629174706176000000000000000000000000000000000000000⟩)]),
    (2, [(4, ⟨false, 1141512032696178961068092290099343594838782694694248872884651737250829691790590481461, 4113761393303015105387422956393376262456839664083949658371522560000000000000000000⟩)]),
    (1, [(11, ⟨true, 87406029591779252914478873818972428568606285687929150682572980199, 57089907708238395242331438777979805455309864960000000000000000000000000000⟩)]),
    (0, [(18, ⟨false, 1079616428708565964725913547748651812769611992293, 633825300114114700748351602688000000000000000000000000000000000000000000⟩), (10, ⟨false, 102128653414597773942475387265703483616709579673877790226434186409, 1141798154164767904846628775559596109106197299200000000000000000000000000000⟩), (1, ⟨true, 636400343652694010864665088384770248151384072089178364641026023428601602763495274382905369, 2156795733372051183573361206961570453890971553803245798488288819937280000000000000000000⟩)])]⟩

def sk2 : Scl :=
  ⟨1, 1, 9, 8,
   [(16, [(39, ⟨true, 17731742473213, 10000000000000000⟩), (38, ⟨true, 80256880315611, 4000000000000000⟩), (37, ⟨true, 745135421881113, 12800000000000000⟩), (36, ⟨true, 5247092233977741, 64000000000000000⟩), (33, ⟨true, 2674491645244984713, 26214400000000000000⟩)]),
    (15, [(38, ⟨true, 297293775031827, 8000000000000000000⟩), (37, ⟨true, 306973597764303, 1280000000000000000⟩), (35, ⟨true, 51691202298730431, 8192000000000000000⟩), (32, ⟨true, 209481107380525491237, 2097152000000000000000⟩), (12, ⟨true, 600934873089175774824642501568298177075926093767, 324518553658426726783156020576256000000000000000000⟩)]),
    (14, [(39, ⟨false, 20481737692309, 1000000000000000000000⟩), (38, ⟨false, 78967201111983, 160000000000000000000⟩), (36, ⟨true, 2353042670691753, 51200000000000000000⟩), (33, ⟨true, 1997410973150918817, 655360000000000000000⟩), (13, ⟨true, 101798962783805854461369208108457049251013854001, 40564819207303340847894502572032000000000000000⟩)]),
    (13, [(38, ⟨true, 709625786034303, 800000000000000000000000⟩), (37, ⟨false, 207209629207017, 12800000000000000000000⟩), (36, ⟨false, 35156296711791603, 51200000000000000000000⟩)]),
    (12, [(32, ⟨false, 109635580538666095509, 20971520000000000000000000⟩)]),
    (11, [(36, ⟨true, 12185064742823469, 512000000000000000000000000⟩), (23, ⟨true, 7846233127837753333687072911, 562949953421312000000000000000⟩), (13, ⟨true, 7476844746031284736458640025205513244980611787, 5070602400912917605986812821504000000000000⟩)]),
    (10, [(39, ⟨true, 5905956432427, 1000000000000000000000000000000⟩), (28, ⟨true, 396085737436095147511509, 85899345920000000000000000000⟩), (18, ⟨true, 27959859811568678720986017281817529011, 37778931862957161709568000000000000000⟩)]),
    (9, [(31, ⟨false, 484542989950709004939, 16777216000000000000000000000000⟩), (12, ⟨true, 927171387414895699444281590427158693649511036359, 1622592768292133633915780102881280000000000000⟩)]),
    (8, [(26, ⟨false, 6294204005079876220093869, 68719476736000000000000000000000⟩)]),
    (7, [(35, ⟨false, 34140049371975807, 204800000000000000000000000000000000⟩), (29, ⟨true, 35686356522265287803529, 107374182400000000000000000000000000⟩), (25, ⟨true, 229183810441643117393704071, 43980465111040000000000000000000000⟩)]),
    (6, [(15, ⟨true, 76193781826982097903260194582320274945533, 30948500982134506872478105600000000000000000000000⟩), (5, ⟨false, 5510948259118169984541493606322056669318327303777548846377409, 142724769270595988105828596944949513638274662400000000000000⟩)]),
    (5, [(1, ⟨true, 82978615912326149416872352853299832836845405638884939568563195971699, 299315535325368917648114653740294762425534984801484800000000000000⟩)]),
    (4, [(21, ⟨false, 1084291671514394713345494536380221, 115292150460684697600000000000000000000000000000000000000⟩), (13, ⟨false, 9583742894115316165284843110814668082657455121, 507060240091291760598681282150400000000000000000000000000⟩), (7, ⟨true, 8351515303599085559699537739224026902995049997720627001649, 6968982874540819731729911960202612970618880000000000000000000⟩)]),
    (3, [(20, ⟨true, 6461851070323204988446123516699551, 9223372036854775808000000000000000000000000000000000000000⟩)]),
    (2, [(3, ⟨false, 14211970530376810195937382943265349305071640993955402666881076153, 7307508186654514591018424163581415098279662714880000000000000000000⟩)]),
    (1, [(10, ⟨true, 209701459987195239672376506389653158191895154777809, 1661534994731144841129758825350430720000000000000000000000000000⟩)]),
    (0, [(17, ⟨false, 472225037142600149754886486569928261701, 302231454903657293676544000000000000000000000000000000000000000000⟩), (9, ⟨false, 4095392104163840908139020149420428963547159540441789, 664613997892457936451903530140172288000000000000000000000000000000⟩), (0, ⟨true, 209362143101683768939144545324561096248388327508663427702584271459241, 239452428260295134118491722992235809940427987841187840000000000000000000⟩)])],
   [(16, [(39, ⟨false, 0, 1⟩), (39, ⟨true, 8917431146179, 500000000000000⟩), (38, ⟨true, 82792824653457, 800000000000000⟩), (37, ⟨true, 1749030744659247, 8000000000000000⟩), (34, ⟨true, 891497215081661571, 1638400000000000000⟩)]),
    (15, [(39, ⟨true, 33032641670203, 1000000000000000000⟩), (38, ⟨true, 34108177529367, 80000000000000000⟩), (36, ⟨true, 5743466922081159, 256000000000000000⟩), (33, ⟨true, 162929750184853159851, 262144000000000000000⟩), (13, ⟨true, 600934873089175774824642501568298177075926093767, 10141204801825835211973625643008000000000000000000⟩)]),
    (14, [(39, ⟨false, 0, 1⟩), (39, ⟨false, 8774133456887, 20000000000000000000⟩), (37, ⟨true, 784347556897251, 6400000000000000000⟩), (34, ⟨true, 665803657716972939, 40960000000000000000⟩), (14, ⟨true, 79176971054071220136620495195466593861899664223, 1014120480182583521197362564300800000000000000⟩)]),
    (13, [(39, ⟨true, 78847309559367, 100000000000000000000000⟩), (38, ⟨false, 23023292134113, 800000000000000000000⟩), (37, ⟨false, 11718765570597201, 6400000000000000000000⟩)]),
    (12, [(33, ⟨false, 85272118196740296507, 2621440000000000000000000⟩)]),
    (11, [(37, ⟨true, 4061688247607823, 64000000000000000000000000⟩), (24, ⟨true, 871803680870861481520785879, 4398046511104000000000000000⟩), (14, ⟨true, 5815323691357665906134497797382065857207142501, 126765060022822940149670320537600000000000⟩)]),
    (10, [(39, ⟨false, 0, 1⟩), (29, ⟨true, 484104790199671846958511, 10737418240000000000000000000⟩), (19, ⟨true, 3106651090174297635665113031313058779, 188894659314785808547840000000000000⟩)]),
    (9, [(32, ⟨false, 53838109994523222771, 262144000000000000000000000000⟩), (13, ⟨true, 927171387414895699444281590427158693649511036359, 50706024009129176059868128215040000000000000⟩)]),
    (8, [(27, ⟨false, 9091628007337598984580033, 8589934592000000000000000000000⟩)]),
    (7, [(36, ⟨false, 3793338819108423, 6400000000000000000000000000000000⟩), (30, ⟨true, 3965150724696143089281, 1342177280000000000000000000000000⟩), (26, ⟨true, 178254074787944646861769833, 2748779069440000000000000000000000⟩)]),
    (6, [(16, ⟨true, 245513296998053426577171738098587552602273, 3868562622766813359059763200000000000000000000000⟩), (6, ⟨false, 612327584346463331615721511813561852146480811530838760708601, 356811923176489970264571492362373784095686656000000000000⟩)]),
    (5, [(2, ⟨true, 525531234111398946306858234737565607966687569046271283934233574487427, 37414441915671114706014331717536845303191873100185600000000000000⟩)]),
    (4, [(22, ⟨false, 120476852390488301482832726264469, 720575940379279360000000000000000000000000000000000000⟩), (14, ⟨false, 7454022250978579239665989086189186286511353983, 12676506002282294014967032053760000000000000000000000000⟩), (8, ⟨true, 2783838434533028519899845913074675634331683332573542333883, 54445178707350154154139937189082913832960000000000000000000⟩)]),
    (3, [(21, ⟨true, 15077652497420811639707621538965619, 1152921504606846976000000000000000000000000000000000000000⟩)]),
    (2, [(4, ⟨false, 83692715345552326709409032888118168129866330297737371260521892901, 913438523331814323877303020447676887284957839360000000000000000000⟩)]),
    (1, [(11, ⟨true, 908706326611179371913631527688497018831545670703839, 207691874341393105141219853168803840000000000000000000000000000⟩)]),
    (0, [(18, ⟨false, 682102831428200216312613813934340822457, 18889465931478580854784000000000000000000000000000000000000000000⟩), (10, ⟨false, 455043567129315656459891127713380995949684393382421, 2076918743413931051412198531688038400000000000000000000000000000⟩), (1, ⟨true, 674611349994314366581687979379141310133695721972359933708327096924221, 14965776766268445882405732687014738121276749240074240000000000000000000⟩)])]⟩

def sk3 : Scl :=
  ⟨1, 1, 15, 16,
   [(16, [(39, ⟨true, 17731742473213, 10000000000000000⟩), (38, ⟨true, 26752293438537, 1600000000000000⟩), (37, ⟨true, 82792824653457, 2048000000000000⟩), (36, ⟨true, 194336749406583, 4096000000000000⟩), (33, ⟨true, 3668712819266097, 107374182400000000⟩)]),
    (15, [(38, ⟨true, 99097925010609, 3200000000000000000⟩), (37, ⟨true, 34108177529367, 204800000000000000⟩), (35, ⟨true, 638162991342351, 209715200000000000⟩), (32, ⟨true, 95784685587803151, 3435973836800000000⟩), (12, ⟨true, 15272928393849246623234644003017425537109375, 5846006549323611672814739330865132078623730171904⟩)]),
    (14, [(39, ⟨false, 20481737692309, 1000000000000000000000⟩), (38, ⟨false, 26322400370661, 64000000000000000000⟩), (36, ⟨true, 87149728544139, 3276800000000000000⟩), (33, ⟨true, 2739932747806473, 2684354560000000000⟩), (13, ⟨true, 194043689939234633408446993240642547607421875, 45671926166590716193865151022383844364247891968⟩)]),
    (13, [(38, ⟨true, 236541928678101, 320000000000000000000000⟩), (37, ⟨false, 23023292134113, 2048000000000000000000⟩), (36, ⟨false, 1302085063399689, 3276800000000000000000⟩)]),
    (12, [(32, ⟨false, 50130580950464607, 34359738368000000000000⟩)]),
    (11, [(36, ⟨true, 451298694178647, 32768000000000000000000000⟩), (23, ⟨true, 911362462176591026955, 1208925819614629174706176⟩), (13, ⟨true, 1781494751945410312270983021748065948486328125, 713623846352979940529142984724747568191373312⟩)]),
    (10, [(39, ⟨true, 5905956432427, 1000000000000000000000000000000⟩), (28, ⟨true, 2235915581049044847, 3602879701896396800000000⟩), (18, ⟨true, 322257968452860550743001728515625, 41538374868278621028243970633760768⟩)]),
    (9, [(31, ⟨false, 73852002735971499, 10995116277760000000000000000⟩), (12, ⟨true, 73638502913069593523542622683990001678466796875, 91343852333181432387730302044767688728495783936⟩)]),
    (8, [(26, ⟨false, 3947885092970418303, 461168601842738790400000000⟩)]),
    (7, [(35, ⟨false, 421482091012047, 5242880000000000000000000000000000⟩), (29, ⟨true, 604351581267511521, 11258999068426240000000000000000⟩), (25, ⟨true, 47916641408640348159, 118059162071741130342400000000⟩)]),
    (6, [(15, ⟨true, 17346951696287308809946336734375, 1393796574908163946345982392040522594123776⟩), (5, ⟨false, 111707865559620399104531936937927135164500214159488677978515625, 26328072917139296674479506920917608079723773850137277813577744384⟩)]),
    (5, [(1, ⟨true, 60084832376900184431524923673582771439524776724283583462238311767578125, 7067388259113537318333190002971674063309935587502475832486424805170479104⟩)]),
    (4, [(21, ⟨false, 310971814375280243587821, 1267650600228229401496703205376000000000000000000⟩), (13, ⟨false, 374128918126160677440703921880859375, 11692013098647223345629478661730264157247460343808⟩), (7, ⟨true, 19501821654483703585341551098184177465736865997314453125, 102844034832575377634685573909834406561420991602098741459288064⟩)]),
    (3, [(20, ⟨true, 617746929278636996751717, 40564819207303340847894502572032000000000000000000⟩)]),
    (2, [(3, ⟨false, 426783819246396575561408580120133877156185917556285858154296875, 3450873173395281893717377931138512726225554486085193277581262111899648⟩)]),
    (1, [(10, ⟨true, 2526635348394806029958793565225927734375, 24519928653854221733733552434404946937899825954937634816⟩)]),
    (0, [(17, ⟨false, 185778899845802125361283069, 13611294676837538538534984297270728458240000000000000000⟩), (9, ⟨false, 3289617044646608655662978935337783203125, 784637716923335095479473677900958302012794430558004314112⟩), (0, ⟨true, 80852890501328142815433570782713859229932495509274303913116455078125, 3618502788666131106986593281521497120414687020801267626233049500247285301248⟩)])],
   [(16, [(39, ⟨false, 0, 1⟩), (39, ⟨true, 8917431146179, 500000000000000⟩), (38, ⟨true, 27597608217819, 320000000000000⟩), (37, ⟨true, 194336749406583, 1280000000000000⟩), (34, ⟨true, 3668712819266097, 16777216000000000⟩)]),
    (15, [(39, ⟨true, 33032641670203, 1000000000000000000⟩), (38, ⟨true, 11369392509789, 32000000000000000⟩), (36, ⟨true, 212720997114117, 16384000000000000⟩), (33, ⟨true, 223497599704874019, 1073741824000000000⟩), (13, ⟨true, 9163757036309547973940786401810455322265625, 91343852333181432387730302044767688728495783936⟩)]),
    (14, [(39, ⟨false, 0, 1⟩), (39, ⟨false, 8774133456887, 20000000000000000000⟩), (37, ⟨true, 87149728544139, 1024000000000000000⟩), (34, ⟨true, 2739932747806473, 419430400000000000⟩), (14, ⟨true, 452768609858214144619709650894832611083984375, 2854495385411919762116571938898990272765493248⟩)]),
    (13, [(39, ⟨true, 78847309559367, 100000000000000000000000⟩), (38, ⟨false, 7674430711371, 320000000000000000000⟩), (37, ⟨false, 1302085063399689, 1024000000000000000000⟩)]),
    (12, [(33, ⟨false, 116971355551084083, 10737418240000000000000⟩)]),
    (11, [(37, ⟨true, 451298694178647, 10240000000000000000000000⟩), (24, ⟨true, 60757497478439401797, 4722366482869645213696⟩), (14, ⟨true, 4156821087872624061965627050745487213134765625, 44601490397061246283071436545296723011960832⟩)]),
    (10, [(39, ⟨false, 0, 1⟩), (29, ⟨true, 8198357130513164439, 1125899906842624000000000⟩), (19, ⟨true, 537096614088100917905002880859375, 2596148429267413814265248164610048⟩)]),
    (9, [(32, ⟨false, 24617334245323833, 429496729600000000000000000⟩), (13, ⟨true, 44183101747841756114125573610394001007080078125, 1427247692705959881058285969449495136382746624⟩)]),
    (8, [(27, ⟨false, 17107502069538479313, 144115188075855872000000000⟩)]),
    (7, [(36, ⟨false, 140494030337349, 409600000000000000000000000000000⟩), (30, ⟨true, 201450527089170507, 351843720888320000000000000000⟩), (26, ⟨true, 111805496620160812371, 18446744073709551616000000000⟩)]),
    (6, [(16, ⟨true, 33537439946155463699229584353125, 87112285931760246646623899502532662132736⟩), (6, ⟨false, 186179775932700665174219894896545225274167023599147796630859375, 822752278660603021077484591278675252491367932816789931674304512⟩)]),
    (5, [(2, ⟨true, 228322363032220700839794709959614531470194151552277617156505584716796875, 441711766194596082395824375185729628956870974218904739530401550323154944⟩)]),
    (4, [(22, ⟨false, 103657271458426747862607, 19807040628566084398385987584000000000000000000⟩), (14, ⟨false, 872967475627708247361642484388671875, 730750818665451459101842416358141509827966271488⟩), (8, ⟨true, 3900364330896740717068310219636835493147373199462890625, 401734511064747568885490523085290650630550748445698208825344⟩)]),
    (3, [(21, ⟨true, 4324228504950458977262019, 12676506002282294014967032053760000000000000000000⟩)]),
    (2, [(4, ⟨false, 1507969494670601233650310316424473032618523575365543365478515625, 215679573337205118357336120696157045389097155380324579848828881993728⟩)]),
    (1, [(11, ⟨true, 6569251905826495677892863269587412109375, 1532495540865888858358347027150309183618739122183602176⟩)]),
    (0, [(18, ⟨false, 805041899331809209898893299, 2126764793255865396646091296448551321600000000000000000⟩), (10, ⟨false, 1096539014882202885220992978445927734375, 6129982163463555433433388108601236734474956488734408704⟩), (1, ⟨true, 156315588302567742776504903513246794511202824651263654232025146484375, 113078212145816597093331040047546785012958969400039613319782796882727665664⟩)])]⟩

def sk4 : Scl :=
  ⟨2, 1, 25, 32,
   [(16, [(39, ⟨true, 17731742473213, 5000000000000000⟩), (38, ⟨true, 8917431146179, 320000000000000⟩), (37, ⟨true, 9199202739273, 163840000000000⟩), (36, ⟨true, 7197657385429, 131072000000000⟩), (33, ⟨true, 5032527872793, 219902325555200⟩)]),
    (15, [(38, ⟨true, 33032641670203, 320000000000000000⟩), (37, ⟨true, 3789797503263, 8192000000000000⟩), (35, ⟨true, 7878555448671, 1342177280000000⟩), (32, ⟨true, 43797295650573, 1407374883553280⟩), (12, ⟨true, 1480734863284316471521151470369659364223480224609375, 100433627766186892221372630771322662657637687111424552206336⟩)]),
    (14, [(39, ⟨false, 20481737692309, 125000000000000000000⟩), (38, ⟨false, 8774133456887, 3200000000000000000⟩), (36, ⟨true, 3227767723857, 26214400000000000⟩), (33, ⟨true, 3758481135537, 1374389534720000⟩), (13, ⟨true, 11287707869136742733218170542386360466480255126953125, 196159429230833773869868419475239575503198607639501078528⟩)]),
    (13, [(38, ⟨true, 78847309559367, 8000000000000000000000⟩), (37, ⟨false, 2558143570457, 20480000000000000000⟩), (36, ⟨false, 48225372718507, 13107200000000000000⟩)]),
    (12, [(32, ⟨false, 22922076337661, 1759218604441600000⟩)]),
    (11, [(36, ⟨true, 16714766451061, 32768000000000000000000⟩), (23, ⟨true, 3230510302941131591796875, 1237940039285380274899124224⟩), (13, ⟨true, 103631261272434105347173272093641571700572967529296875, 383123885216472214589586756787577295904684780545900544⟩)]),
    (10, [(39, ⟨true, 5905956432427, 7812500000000000000000000000⟩), (28, ⟨true, 1577726112387625, 147573952589676412928⟩), (18, ⟨true, 113350229907486937008798122406005859375, 10889035741470030830827987437816582766592⟩)]),
    (9, [(31, ⟨false, 11256211360459, 28147497671065600000000⟩), (12, ⟨true, 7139370769744350642138641660494613461196422576904296875, 24519928653854221733733552434404946937899825954937634816⟩)]),
    (8, [(26, ⟨false, 7738169063315625, 18889465931478580854784⟩)]),
    (7, [(35, ⟨false, 5203482605087, 131072000000000000000000000000⟩), (29, ⟨true, 10234747095929, 1152921504606846976000000⟩), (25, ⟨true, 156534052804859375, 4835703278458516698824704⟩)]),
    (6, [(15, ⟨true, 47080049202186637558043003082275390625, 11417981541647679048466287755595961091061972992⟩), (5, ⟨false, 13820419781341545899849076076506583510283832083587185479700565338134765625, 452312848583266388373324160190187140051835877600158453279131187530910662656⟩)]),
    (5, [(1, ⟨true, 265548334597170594583745292217480728167995455979433216953111696057021617889404296875, 3885337784451458141838923813647037813284813678104279042503624819477808570410416996352⟩)]),
    (4, [(21, ⟨false, 2229646133885525, 332306998946228968225951765070086144⟩), (13, ⟨false, 21763438607700891225249506533145904541015625, 383123885216472214589586756787577295904684780545900544⟩), (7, ⟨true, 868590673983561294832435491219957413022711989469826221466064453125, 27606985387162255149739023449108101809804435888681546220650096895197184⟩)]),
    (3, [(20, ⟨true, 7382003710704875, 10633823966279326983230456482242756608⟩)]),
    (2, [(3, ⟨false, 244450919514926949858099271514527868476296390554125537164509296417236328125, 7410693711188236507108543040556026102609279018600996098525285376506440296955904⟩)]),
    (1, [(10, ⟨true, 1134080290537387014637715765275061130523681640625, 1606938044258990275541962092341162602522202993782792835301376⟩)]),
    (0, [(17, ⟨false, 713746197217392578125, 356811923176489970264571492362373784095686656⟩), (9, ⟨false, 2460907715419313745996987563557922840118408203125, 51422017416287688817342786954917203280710495801049370729644032⟩), (0, ⟨true, 595556581437942346148848773221039646958048507929817105832626111805438995361328125, 62165404551223330269422781018352605012557018849668464680057997111644937126566671941632⟩)])],
   [(16, [(39, ⟨false, 0, 1⟩), (39, ⟨true, 8917431146179, 250000000000000⟩), (38, ⟨true, 9199202739273, 64000000000000⟩), (37, ⟨true, 21592972156287, 102400000000000⟩), (34, ⟨true, 15097583618379, 85899345920000⟩)]),
    (15, [(39, ⟨true, 33032641670203, 250000000000000000⟩), (38, ⟨true, 3789797503263, 3200000000000000⟩), (36, ⟨true, 7878555448671, 262144000000000⟩), (33, ⟨true, 306581069554011, 1099511627776000⟩), (13, ⟨true, 533064550782353929747614529333077371120452880859375, 784637716923335095479473677900958302012794430558004314112⟩)]),
    (14, [(39, ⟨false, 0, 1⟩), (39, ⟨false, 8774133456887, 2500000000000000000⟩), (37, ⟨true, 9683303171571, 20480000000000000⟩), (34, ⟨true, 11275443406611, 536870912000000⟩), (14, ⟨true, 15802791016791439826505438759340904653072357177734375, 6129982163463555433433388108601236734474956488734408704⟩)]),
    (13, [(39, ⟨true, 78847309559367, 6250000000000000000000⟩), (38, ⟨false, 2558143570457, 8000000000000000000⟩), (37, ⟨false, 144676118155521, 10240000000000000000⟩)]),
    (12, [(33, ⟨false, 160454534363627, 1374389534720000000⟩)]),
    (11, [(37, ⟨true, 50144299353183, 25600000000000000000000⟩), (24, ⟨true, 129220412117645263671875, 2417851639229258349412352⟩), (14, ⟨true, 145083765781407747486042580931098200380802154541015625, 11972621413014756705924586149611790497021399392059392⟩)]),
    (10, [(39, ⟨false, 0, 1⟩), (29, ⟨true, 694199489450555, 4611686018427387904⟩), (19, ⟨true, 113350229907486937008798122406005859375, 340282366920938463463374607431768211456⟩)]),
    (9, [(32, ⟨false, 11256211360459, 2748779069440000000000⟩), (13, ⟨true, 2570173477107966231169910997778060846030712127685546875, 191561942608236107294793378393788647952342390272950272⟩)]),
    (8, [(27, ⟨false, 4023847912924125, 590295810358705651712⟩)]),
    (7, [(36, ⟨false, 5203482605087, 25600000000000000000000000000⟩), (30, ⟨true, 10234747095929, 90071992547409920000000⟩), (26, ⟨true, 43829534785360625, 75557863725914323419136⟩)]),
    (6, [(16, ⟨true, 54612857074536499567329883575439453125, 356811923176489970264571492362373784095686656⟩), (6, ⟨false, 13820419781341545899849076076506583510283832083587185479700565338134765625, 7067388259113537318333190002971674063309935587502475832486424805170479104⟩)]),
    (5, [(2, ⟨true, 605450202881548955650939266255856060223029639633107734653094667010009288787841796875, 121416805764108066932466369176469931665150427440758720078238275608681517825325531136⟩)]),
    (4, [(22, ⟨false, 445929226777105, 2596148429267413814265248164610048⟩), (14, ⟨false, 30468814050781247715349309146404266357421875, 11972621413014756705924586149611790497021399392059392⟩), (8, ⟨true, 104230880878027355379892258946394889562725438736379146575927734375, 53919893334301279589334030174039261347274288845081144962207220498432⟩)]),
    (3, [(21, ⟨true, 6200883116992095, 332306998946228968225951765070086144⟩)]),
    (2, [(4, ⟨false, 518235949371645133699170455610799081169748347974746138788759708404541015625, 231584178474632390847141970017375815706539969331281128078915168015826259279872⟩)]),
    (1, [(11, ⟨true, 1769165253238323742834836593829095363616943359375, 50216813883093446110686315385661331328818843555712276103168⟩)]),
    (0, [(18, ⟨false, 371148022553044140625, 5575186299632655785383929568162090376495104⟩), (10, ⟨false, 492181543083862749199397512711584568023681640625, 200867255532373784442745261542645325315275374222849104412672⟩), (1, ⟨true, 690845634468013121532664576936405990471336269198587842765846289694309234619140625, 971334446112864535459730953411759453321203419526069760625906204869452142602604249088⟩)])]⟩

def sk5 : Scl :=
  ⟨5, 1, 21, 32,
   [(16, [(39, ⟨true, 17731742473213, 2000000000000000⟩), (38, ⟨true, 187266054069759, 3200000000000000⟩), (37, ⟨true, 4056848408019393, 40960000000000000⟩), (36, ⟨true, 66657505046457969, 819200000000000000⟩), (33, ⟨true, 431620394473837045953, 21474836480000000000000⟩)]),
    (15, [(38, ⟨true, 693685475074263, 1280000000000000000⟩), (37, ⟨true, 1671300698938983, 819200000000000000⟩), (35, ⟨true, 1532229342212984751, 83886080000000000000⟩), (32, ⟨true, 78882807323036170383993, 1374389534720000000000000⟩), (12, ⟨true, 10616752132214169657369775940598665316224301507741750031820727, 61299821634635554334333881086012367344749564887344087040000000000000000⟩)]),
    (14, [(39, ⟨false, 20481737692309, 8000000000000000000⟩), (38, ⟨false, 184256802594627, 5120000000000000000⟩), (36, ⟨true, 29892356890639677, 26214400000000000000⟩), (33, ⟨true, 322350347846683741977, 21474836480000000000000⟩), (13, ⟨true, 770780712037882242882633583793088946342554892835522919518949, 383123885216472214589586756787577295904684780545900544000000000000⟩)]),
    (13, [(38, ⟨true, 1655793500746707, 5120000000000000000000⟩), (37, ⟨false, 1128141314571537, 327680000000000000000⟩), (36, ⟨false, 446615176746093327, 5242880000000000000000⟩)]),
    (12, [(32, ⟨false, 41284689027688473842601, 109951162777600000000000000⟩)]),
    (11, [(36, ⟨true, 154795452103275921, 2097152000000000000000000⟩), (23, ⟨true, 6057449085851053411134410738918991, 154742504910672534362390528000000000⟩), (13, ⟨true, 56611654574337861971485074975768459389240800670337157249863, 383123885216472214589586756787577295904684780545900544000000⟩)]),
    (10, [(39, ⟨true, 5905956432427, 12800000000000000000000000⟩), (28, ⟨true, 4421135673498660370579443321, 4611686018427387904000000000000⟩), (18, ⟨true, 44254213010308223533318721823185169561106585239, 544451787073501541541399371890829138329600000000⟩)]),
    (9, [(31, ⟨false, 425742099224331233406699, 2814749767106560000000000000000⟩), (12, ⟨true, 16380392027613830480769179169180778235104914529951382277156279, 19615942923083377386986841947523957550319860763950107852800000⟩)]),
    (8, [(26, ⟨false, 382506679858451021502510279321, 2361183241434822606848000000000000⟩)]),
    (7, [(35, ⟨false, 1011978500519924847, 5368709120000000000000000000000⟩), (29, ⟨true, 170714363402084052504843729, 11529215046068469760000000000000000⟩), (25, ⟨true, 32498171776771692827482180034991, 1208925819614629174706176000000000000⟩)]),
    (6, [(15, ⟨true, 3574755175212077261597471235648233016247073187476457, 58460065493236116728147393308651320786237301719040000000⟩), (5, ⟨false, 345148195349061983373949133743186204221940206575507143468099882685766806822460225, 29642774844752946028434172162224104410437116074403984394101141506025761187823616⟩)]),
    (5, [(1, ⟨true, 48924113568199608905080058037243625225498157337146810685756146767964178125193108155234694375, 1018517988167243043134222844204689080525734196832968125318070224677190649881668353091698688⟩)]),
    (4, [(21, ⟨false, 24813145823683928951731925822324827039821, 1329227995784915872903807060280344576000000000000000000⟩), (13, ⟨false, 72564238081699919956530780553722375183070767438050057621829, 6277101735386680763835789423207666416102355444464034512896000000⟩), (7, ⟨true, 19214141281500813740065794125750718245632597901707878995976818303157612933045, 28948022309329048855892746252171976963317496166410141009864396001978282409984⟩)]),
    (3, [(20, ⟨true, 345039992398731637675323473836416975890019, 85070591730234615865843651857942052864000000000000000000⟩)]),
    (2, [(3, ⟨false, 56537152562782448543466835122844847857581218369290628138154920948743923414156604034625, 31082702275611665134711390509176302506278509424834232340028998555822468563283335970816⟩)]),
    (1, [(10, ⟨true, 47064785164804213107796316671754384613864923062731081136770066261, 42124916667422874679167211073468172927558038160219644501724391014400000⟩)]),
    (0, [(17, ⟨false, 1743995769452298866095706500209360620627834756781, 22835963083295358096932575511191922182123945984000000000000000000⟩), (9, ⟨false, 2144701721706553252791983132579773155950901173151433594755117914589, 13479973333575319897333507543509815336818572211270286240551805124608000000⟩), (0, ⟨true, 1440130088007173946999780911215536121894295852788011385502321820258688971770840599357867753125, 1042962419883256876169444192465601618458351817556959360325703910069443225478828393565899456512⟩)])],
   [(16, [(39, ⟨false, 0, 1⟩), (39, ⟨true, 8917431146179, 100000000000000⟩), (38, ⟨true, 193183257524733, 640000000000000⟩), (37, ⟨true, 9522500720922567, 25600000000000000⟩), (34, ⟨true, 61660056353405292279, 335544320000000000000⟩)]),
    (15, [(39, ⟨true, 33032641670203, 40000000000000000⟩), (38, ⟨true, 79585747568523, 12800000000000000⟩), (36, ⟨true, 72963302010142131, 655360000000000000⟩), (33, ⟨true, 26294269107678723461331, 42949672960000000000000⟩), (13, ⟨true, 4550036628091786996015618260256570849810414931889321442208883, 478904856520590268236983445984471619880855975682375680000000000000000⟩)]),
    (14, [(39, ⟨false, 0, 1⟩), (39, ⟨false, 8774133456887, 160000000000000000⟩), (37, ⟨true, 4270336698662811, 819200000000000000⟩), (34, ⟨true, 46050049692383391711, 335544320000000000000⟩), (14, ⟨true, 256926904012627414294211194597696315447518297611840973172983, 2394524282602951341184917229922358099404279878411878400000000000⟩)]),
    (13, [(39, ⟨true, 78847309559367, 160000000000000000000⟩), (38, ⟨false, 53721014979597, 5120000000000000000⟩), (37, ⟨false, 63802168106584761, 163840000000000000000⟩)]),
    (12, [(33, ⟨false, 13761563009229491280867, 3435973836800000000000000⟩)]),
    (11, [(37, ⟨true, 22113636014753703, 65536000000000000000000⟩), (24, ⟨true, 288449956469097781482590987567571, 302231454903657293676544000000000⟩), (14, ⟨true, 18870551524779287323828358325256153129746933556779052416621, 2394524282602951341184917229922358099404279878411878400000⟩)]),
    (10, [(39, ⟨false, 0, 1⟩), (29, ⟨true, 2315832971832631622684470311, 144115188075855872000000000000⟩), (19, ⟨true, 2107343476681343977777081991580246169576504059, 680564733841876926926749214863536422912000000⟩)]),
    (9, [(32, ⟨false, 20273433296396725400319, 10995116277760000000000000000⟩), (13, ⟨true, 7020168011834498777472505358220333529330677655693449547352691, 153249554086588885835834702715030918361873912218360217600000⟩)]),
    (8, [(27, ⟨false, 236789849436183965692030172913, 73786976294838206464000000000000⟩)]),
    (7, [(36, ⟨false, 48189452405710707, 41943040000000000000000000000⟩), (30, ⟨true, 8129255400099240595468749, 36028797018963968000000000000000⟩), (26, ⟨true, 10832723925590564275827393344997, 18889465931478580854784000000000000⟩)]),
    (6, [(16, ⟨true, 4936566670530963837444126944466607498626910592229393, 1826877046663628647754606040895353774569915678720000000⟩), (6, ⟨false, 410890708748883313540415635408555005026119293542270408890595098435436674788643125, 463168356949264781694283940034751631413079938662562256157830336031652518559744⟩)]),
    (5, [(2, ⟨true, 132794022542256081313788728958232697040637855629398486147052398370188483482667007849922741875, 31828687130226345097944463881396533766429193651030253916189694521162207808802136034115584⟩)]),
    (4, [(22, ⟨false, 1181578372556377569130091705824991763801, 2076918743413931051412198531688038400000000000000000⟩), (14, ⟨false, 24188079360566639985510260184574125061023589146016685873943, 39231885846166754773973683895047915100639721527900215705600000⟩), (8, ⟨true, 2744877325928687677152256303678674035090371128815411285139545471879658990435, 56539106072908298546665520023773392506479484700019806659891398441363832832⟩)]),
    (3, [(21, ⟨true, 345039992398731637675323473836416975890019, 2658455991569831745807614120560689152000000000000000000⟩)]),
    (2, [(4, ⟨false, 142689004087022370133511536262417949354847836836781109110581467156353711473823810182625, 971334446112864535459730953411759453321203419526069760625906204869452142602604249088⟩)]),
    (1, [(11, ⟨true, 87406029591779252914478873818972428568606285687929150682572980199, 1316403645856964833723975346045880403986188692506863890678887219200000⟩)]),
    (0, [(18, ⟨false, 1079616428708565964725913547748651812769611992293, 356811923176489970264571492362373784095686656000000000000000000⟩), (10, ⟨false, 102128653414597773942475387265703483616709579673877790226434186409, 10531229166855718669791802768367043231889509540054911125431097753600000⟩), (1, ⟨true, 1988751073914668783952078401202407025473075225278682389503206323214380008635922732446579278125, 16296287810675888690147565507275025288411747149327490005089123594835050398106693649467179008⟩)])]⟩

def sk6 : Scl :=
  ⟨7, 1, 9, 16,
   [(16, [(39, ⟨true, 124122197312491, 10000000000000000⟩), (38, ⟨true, 561798162209277, 8000000000000000⟩), (37, ⟨true, 5215947953167791, 51200000000000000⟩), (36, ⟨true, 36729645637844187, 512000000000000000⟩), (33, ⟨true, 18721441516714892991, 1677721600000000000000⟩)]),
    (15, [(38, ⟨true, 14567394976559523, 16000000000000000000⟩), (37, ⟨true, 15041706290450847, 5120000000000000000⟩), (35, ⟨true, 2532868912637791119, 131072000000000000000⟩), (32, ⟨true, 10264574261645749070613, 268435456000000000000000⟩), (12, ⟨true, 29445808781369612966407482576846610676720378594583, 22300745198530623141535718272648361505980416000000000000000000⟩)]),
    (14, [(39, ⟨false, 7025236028461987, 1000000000000000000000⟩), (38, ⟨false, 27085749981410169, 320000000000000000000⟩), (36, ⟨true, 807093636047271279, 409600000000000000000⟩), (33, ⟨true, 685111963790765154231, 41943040000000000000000⟩), (13, ⟨true, 34917044234845408080249638381200767893097751922343, 1393796574908163946345982392040522594123776000000000000000⟩)]),
    (13, [(38, ⟨true, 1703811512268361503, 1600000000000000000000000⟩), (37, ⟨false, 497510319726047817, 51200000000000000000000⟩), (36, ⟨false, 84410268405011638803, 409600000000000000000000⟩)]),
    (12, [(32, ⟨false, 1842645202113361067219763, 2684354560000000000000000000⟩)]),
    (11, [(36, ⟨true, 1433560681928438304381, 4096000000000000000000000000⟩), (23, ⟨true, 923101481256983841954950440906239, 36893488147419103232000000000000000⟩), (13, ⟨true, 879643307525834617959622540325403427758723996128763, 174224571863520493293247799005065324265472000000000000⟩)]),
    (10, [(39, ⟨true, 4863809078230228861, 1000000000000000000000000000000⟩), (28, ⟨true, 326193636465334106067070656387, 175921860444160000000000000000000⟩), (18, ⟨true, 23026146828798704379916987630319853294305973, 1267650600228229401496703205376000000000000000⟩)]),
    (9, [(31, ⟨false, 2793293913010837222381352139, 4294967296000000000000000000000000⟩), (12, ⟨true, 5344958541340778143052093956776074864309394871913399559, 111503725992653115707678591363241807529902080000000000000⟩)]),
    (8, [(26, ⟨false, 253993834798819328594313492735483, 562949953421312000000000000000000000⟩)]),
    (7, [(35, ⟨false, 9643718947221159704300943, 3276800000000000000000000000000000000⟩), (29, ⟨true, 10080512444529661216358517353721, 109951162777600000000000000000000000000⟩), (25, ⟨true, 64738753921271939554922788488038679, 720575940379279360000000000000000000000⟩)]),
    (6, [(15, ⟨true, 2532142661291422493303022766135539029129862930940542333, 16615349947311448411297588253504307200000000000000000000000⟩), (5, ⟨false, 183144960867937644166337280479167766402138919903916566942236787323788543809, 160693804425899027554196209234116260252220299378279283530137600000000000000⟩)]),
    (5, [(1, ⟨true, 135123506487420259487849991010137210892280120635813770230488776419349072000540382851, 43135914667441023671467224139231409077819431076064915969765776398745600000000000000⟩)]),
    (4, [(21, ⟨false, 86518089797759419823291160890971304477470868632221, 120892581961462917470617600000000000000000000000000000000000000⟩), (13, ⟨false, 764708565135096041921698535964460365533731754128412802128507121, 17422457186352049329324779900506532426547200000000000000000000000000⟩), (7, ⟨true, 666386333093360173222550750557586573580416059979613386319040687569389189649, 1961594292308337738698684194752395755031986076395010785280000000000000000000⟩)]),
    (3, [(20, ⟨true, 3609240189651168139294505373605851011794734022380857, 19342813113834066795298816000000000000000000000000000000000000000⟩)]),
    (2, [(3, ⟨false, 55566261521508384847126855732587895170301418786733695908581445049664663845457895497, 65820182292848241686198767302294020199309434625343194533944360960000000000000000000⟩)]),
    (1, [(10, ⟨true, 5739266275235634425107941646351610101803196593483337007942099281832487, 913438523331814323877303020447676887284957839360000000000000000000000000000⟩)]),
    (0, [(17, ⟨false, 90469454104513048406563886884594613181053973838344343156101, 20282409603651670423947251286016000000000000000000000000000000000000000000⟩), (9, ⟨false, 784600262301957555517231036006440233286842860227703461036489591191803389, 730750818665451459101842416358141509827966271488000000000000000000000000000000⟩), (0, ⟨true, 40109857179894934737597724771164724540401362748447901318973910552094346336453187386929641, 69017463467905637874347558622770254524511089721703865551625242237992960000000000000000000⟩)])],
   [(16, [(39, ⟨false, 0, 1⟩), (39, ⟨true, 62422018023253, 500000000000000⟩), (38, ⟨true, 579549772574199, 1600000000000000⟩), (37, ⟨true, 12243215212614729, 32000000000000000⟩), (34, ⟨true, 6240480505571630997, 52428800000000000000⟩)]),
    (15, [(39, ⟨true, 1618599441839947, 1000000000000000000⟩), (38, ⟨true, 1671300698938983, 160000000000000000⟩), (36, ⟨true, 281429879181976791, 2048000000000000000⟩), (33, ⟨true, 7983557759057804832699, 16777216000000000000000⟩), (13, ⟨true, 29445808781369612966407482576846610676720378594583, 348449143727040986586495598010130648530944000000000000000000⟩)]),
    (14, [(39, ⟨false, 0, 1⟩), (39, ⟨false, 3009527775712241, 20000000000000000000⟩), (37, ⟨true, 269031212015757093, 25600000000000000000⟩), (34, ⟨true, 228370654596921718077, 1310720000000000000000⟩), (14, ⟨true, 27157701071546428506860829852045041694631584828489, 17422457186352049329324779900506532426547200000000000000⟩)]),
    (13, [(39, ⟨true, 189312390252040167, 100000000000000000000000⟩), (38, ⟨false, 55278924414005313, 1600000000000000000000⟩), (37, ⟨false, 28136756135003879601, 25600000000000000000000⟩)]),
    (12, [(33, ⟨false, 1433168490532614163393149, 167772160000000000000000000⟩)]),
    (11, [(37, ⟨true, 477853560642812768127, 256000000000000000000000000⟩), (24, ⟨true, 102566831250775982439438937878471, 144115188075855872000000000000000⟩), (14, ⟨true, 684167016964538036190817531364202666034563108100149, 2177807148294006166165597487563316553318400000000000⟩)]),
    (10, [(39, ⟨false, 0, 1⟩), (29, ⟨true, 398681111235408351859753024473, 10995116277760000000000000000000⟩), (19, ⟨true, 2558460758755411597768554181146650366033997, 3169126500570573503741758013440000000000000⟩)]),
    (9, [(32, ⟨false, 310365990334537469153483571, 33554432000000000000000000000000⟩), (13, ⟨true, 5344958541340778143052093956776074864309394871913399559, 1742245718635204932932477990050653242654720000000000000⟩)]),
    (8, [(27, ⟨false, 366879983598294585747341711729031, 35184372088832000000000000000000000⟩)]),
    (7, [(36, ⟨false, 1071524327469017744922327, 51200000000000000000000000000000000⟩), (30, ⟨true, 1120056938281073468484279705969, 687194767360000000000000000000000000⟩), (26, ⟨true, 50352364160989286320495502157363417, 22517998136852480000000000000000000000⟩)]),
    (6, [(16, ⟨true, 8159126353050139145087517801992292427196224999697303073, 1038459371706965525706099265844019200000000000000000000000⟩), (6, ⟨false, 20349440096437516018481920053240862933570991100435174104692976369309838201, 200867255532373784442745261542645325315275374222849104412672000000000000⟩)]),
    (5, [(2, ⟨true, 855782207753661643423049943064202335651107430693487211459762250655877456003422424723, 2695994666715063979466701508701963067363714442254057248110361024921600000000000000⟩)]),
    (4, [(22, ⟨false, 9613121088639935535921240098996811608607874292469, 377789318629571617095680000000000000000000000000000000000000⟩), (14, ⟨false, 594773328438408032605765527972358062081791364322098846099949983, 217780714829400616616559748756331655331840000000000000000000000000⟩), (8, ⟨true, 222128777697786724407516916852528857860138686659871128773013562523129729883, 7662477704329444291791735135751545918093695610918010880000000000000000000⟩)]),
    (3, [(21, ⟨true, 8421560442519392325020512538413652360854379385555333, 1208925819614629174706176000000000000000000000000000000000000000⟩)]),
    (2, [(4, ⟨false, 327223540071104932988635928203017604891775021744098431461646287514691909312140940149, 4113761393303015105387422956393376262456839664083949658371522560000000000000000000⟩)]),
    (1, [(11, ⟨true, 24870153859354415842134413800856977107813851905094460367749096887940777, 57089907708238395242331438777979805455309864960000000000000000000000000000⟩)]),
    (0, [(18, ⟨false, 130678100373185514365036725499969996817077962210941829003257, 633825300114114700748351602688000000000000000000000000000000000000000000⟩), (10, ⟨false, 87177806922439728390803448445160025920760317803078162337387732354644821, 1141798154164767904846628775559596109106197299200000000000000000000000000000⟩), (1, ⟨true, 129242873135217011932259335373753001296848835522776570916693711778970671528571381580106621, 2156795733372051183573361206961570453890971553803245798488288819937280000000000000000000⟩)])]⟩

def sk7 : Scl :=
  ⟨11, 1, 1, 2,
   [(16, [(39, ⟨true, 195049167205343, 10000000000000000⟩), (38, ⟨true, 98091742607969, 1000000000000000⟩), (37, ⟨true, 101191230132003, 800000000000000⟩), (36, ⟨true, 79174231239719, 1000000000000000⟩), (33, ⟨true, 55357806600723, 6400000000000000⟩)]),
    (15, [(38, ⟨true, 3996949642094563, 2000000000000000000⟩), (37, ⟨true, 458565497894823, 80000000000000000⟩), (35, ⟨true, 953305209289191, 32000000000000000⟩), (32, ⟨true, 5299472773719333, 128000000000000000⟩), (12, ⟨true, 3227620297604527, 68719476736000000000000000000⟩)]),
    (14, [(39, ⟨false, 27261192868463279, 1000000000000000000000⟩), (38, ⟨false, 11678371631116597, 40000000000000000000⟩), (36, ⟨true, 4296158840453667, 800000000000000000⟩), (33, ⟨true, 5002538391399747, 160000000000000000⟩), (13, ⟨true, 54129445491885819, 34359738368000000000000000⟩)]),
    (13, [(38, ⟨true, 1154403459258692247, 200000000000000000000000⟩), (37, ⟨false, 37453780015060937, 800000000000000000000⟩), (36, ⟨false, 706067681971660987, 800000000000000000000⟩)]),
    (12, [(32, ⟨false, 3691623316256641711, 1280000000000000000000⟩)]),
    (11, [(36, ⟨true, 29611228368808076221, 8000000000000000000000000⟩), (23, ⟨true, 7501310935418397031, 131072000000000000000⟩), (13, ⟨true, 5291595559565402043, 4294967296000000000000⟩)]),
    (10, [(39, ⟨true, 115090382917254894017, 1000000000000000000000000000000⟩), (28, ⟨true, 245963348346102933271, 20480000000000000000000⟩), (18, ⟨true, 758963778455302404369, 33554432000000000000000⟩)]),
    (9, [(31, ⟨false, 2412868871527478886379, 256000000000000000000000000⟩), (12, ⟨true, 8822083464252193210119, 343597383680000000000000⟩)]),
    (8, [(26, ⟨false, 5838783320132067447351, 1024000000000000000000000⟩)]),
    (7, [(35, ⟨false, 134964937732059121545287, 800000000000000000000000000000000⟩), (29, ⟨true, 265462981110962151549329, 102400000000000000000000000000⟩), (25, ⟨true, 259845772295359526750111, 163840000000000000000000000⟩)]),
    (6, [(15, ⟨true, 743309560581789125061484516917, 107374182400000000000000000000000⟩), (5, ⟨false, 491341926281408877904121532849, 112589990684262400000000000000⟩)]),
    (5, [(1, ⟨true, 187159329778447152976440291677251, 14411518807585587200000000000000⟩)]),
    (4, [(21, ⟨false, 59999777010915558382724370875228621, 104857600000000000000000000000000000000000000⟩), (13, ⟨false, 2575734096659106596315907312276329, 429496729600000000000000000000000000⟩), (7, ⟨true, 883036247847638983558048680350369, 87960930222080000000000000000000⟩)]),
    (3, [(20, ⟨true, 437029380389258257954980384753208829, 2097152000000000000000000000000000000000000000⟩)]),
    (2, [(3, ⟨false, 3079217536647356571728813794281560697, 90071992547409920000000000000000000⟩)]),
    (1, [(10, ⟨true, 11433398604412405149214556027607841611, 5497558138880000000000000000000000000000⟩)]),
    (0, [(17, ⟨false, 719893426274874890520724963020332817301, 67108864000000000000000000000000000000000000000000⟩), (9, ⟨false, 272910066255567846099368440360572581149, 549755813888000000000000000000000000000000⟩), (0, ⟨true, 92951638902014426610945955675603016761, 2882303761517117440000000000000000000⟩)])],
   [(16, [(39, ⟨false, 0, 1⟩), (39, ⟨true, 98091742607969, 500000000000000⟩), (38, ⟨true, 101191230132003, 200000000000000⟩), (37, ⟨true, 237522693719157, 500000000000000⟩), (34, ⟨true, 166073419802169, 1600000000000000⟩)]),
    (15, [(39, ⟨true, 3996949642094563, 1000000000000000000⟩), (38, ⟨true, 458565497894823, 20000000000000000⟩), (36, ⟨true, 953305209289191, 4000000000000000⟩), (33, ⟨true, 37096309416035331, 64000000000000000⟩), (13, ⟨true, 29048582678440743, 8589934592000000000000000000⟩)]),
    (14, [(39, ⟨false, 0, 1⟩), (39, ⟨false, 11678371631116597, 20000000000000000000⟩), (37, ⟨true, 12888476521361001, 400000000000000000⟩), (34, ⟨true, 15007615174199241, 40000000000000000⟩), (14, ⟨true, 378906118443200733, 3435973836800000000000000⟩)]),
    (13, [(39, ⟨true, 1154403459258692247, 100000000000000000000000⟩), (38, ⟨false, 37453780015060937, 200000000000000000000⟩), (37, ⟨false, 2118203045914982961, 400000000000000000000⟩)]),
    (12, [(33, ⟨false, 25841363213796491977, 640000000000000000000⟩)]),
    (11, [(37, ⟨true, 88833685106424228663, 4000000000000000000000000⟩), (24, ⟨true, 7501310935418397031, 4096000000000000000⟩), (14, ⟨true, 37041168916957814301, 429496729600000000000⟩)]),
    (10, [(39, ⟨false, 0, 1⟩), (29, ⟨true, 2705596831807132265981, 10240000000000000000000⟩), (19, ⟨true, 758963778455302404369, 671088640000000000000⟩)]),
    (9, [(32, ⟨false, 2412868871527478886379, 16000000000000000000000000⟩), (13, ⟨true, 79398751178269738891071, 42949672960000000000000⟩)]),
    (8, [(27, ⟨false, 75904183161716876815563, 512000000000000000000000⟩)]),
    (7, [(36, ⟨false, 134964937732059121545287, 100000000000000000000000000000000⟩), (30, ⟨true, 265462981110962151549329, 5120000000000000000000000000⟩), (26, ⟨true, 1818920406067516687250777, 40960000000000000000000000⟩)]),
    (6, [(16, ⟨true, 21555977256871884626783050990593, 53687091200000000000000000000000⟩), (6, ⟨false, 491341926281408877904121532849, 1125899906842624000000000000⟩)]),
    (5, [(2, ⟨true, 10668081797371487719657096625603307, 7205759403792793600000000000000⟩)]),
    (4, [(22, ⟨false, 59999777010915558382724370875228621, 2621440000000000000000000000000000000000000⟩), (14, ⟨false, 18030138676613746174211351185934303, 42949672960000000000000000000000000⟩), (8, ⟨true, 2649108743542916950674146041051107, 2748779069440000000000000000000⟩)]),
    (3, [(21, ⟨true, 9177616988174423417054588079817385409, 1048576000000000000000000000000000000000000000⟩)]),
    (2, [(4, ⟨false, 163198529442309898301627131096922716941, 45035996273704960000000000000000000⟩)]),
    (1, [(11, ⟨true, 445902545572083800819367685076705822829, 2748779069440000000000000000000000000000⟩)]),
    (0, [(18, ⟨false, 9358614541573373576769424519264326624913, 16777216000000000000000000000000000000000000000000⟩), (10, ⟨false, 272910066255567846099368440360572581149, 6871947673600000000000000000000000000000⟩), (1, ⟨true, 2695597528158418371717432714592487486069, 720575940379279360000000000000000000⟩)])]⟩

def sk8 : Scl :=
  ⟨17, 1, 7, 16,
   [(16, [(39, ⟨true, 301439622044621, 10000000000000000⟩), (38, ⟨true, 1061174306395301, 8000000000000000⟩), (37, ⟨true, 7662935881814409, 51200000000000000⟩), (36, ⟨true, 41969540214436499, 512000000000000000⟩), (33, ⟨true, 10065221819005802169, 1677721600000000000000⟩)]),
    (15, [(38, ⟨true, 66825034098820669, 16000000000000000000⟩), (37, ⟨true, 53667322443707343, 5120000000000000000⟩), (35, ⟨true, 5466842961722871519, 131072000000000000000⟩), (32, ⟨true, 10423928356816393800171, 268435456000000000000000⟩), (12, ⟨true, 20442045514409129158802785004894530158144339943, 22300745198530623141535718272648361505980416000000000000000000⟩)]),
    (14, [(39, ⟨false, 100626777282314117, 1000000000000000000000⟩), (38, ⟨false, 301751223715800817, 320000000000000000000⟩), (36, ⟨true, 5439301829767138263, 409600000000000000000⟩), (33, ⟨true, 2172437940974975616369, 41943040000000000000000⟩), (13, ⟨true, 75689160323729974042518299601751830583471373391, 1393796574908163946345982392040522594123776000000000000000⟩)]),
    (13, [(38, ⟨true, 46097842991955238449, 1600000000000000000000000⟩), (37, ⟨false, 10469276748258815753, 51200000000000000000000⟩), (36, ⟨false, 1381546154704091139421, 409600000000000000000000⟩)]),
    (12, [(32, ⟨false, 26803088572833412622192011, 2684354560000000000000000000⟩)]),
    (11, [(36, ⟨true, 138384663186259913673187, 4096000000000000000000000000⟩), (23, ⟨true, 3396590771076773197985096413847599, 36893488147419103232000000000000000⟩), (13, ⟨true, 27312123097304982056182180991922017593305355155621, 174224571863520493293247799005065324265472000000000000⟩)]),
    (10, [(39, ⟨true, 2423442325277909349371, 1000000000000000000000000000000⟩), (28, ⟨true, 10241002926475760604138128296939, 175921860444160000000000000000000⟩), (18, ⟨true, 21432148194753754933784861214055634251018029, 1267650600228229401496703205376000000000000000⟩)]),
    (9, [(31, ⟨false, 452655634295242940052657876619, 4294967296000000000000000000000000⟩), (12, ⟨true, 761290644046148640446130398631698164312868327437165959, 111503725992653115707678591363241807529902080000000000000⟩)]),
    (8, [(26, ⟨false, 28451358294606241758830036560716819, 562949953421312000000000000000000000⟩)]),
    (7, [(35, ⟨false, 25186944252267823046220735263, 3276800000000000000000000000000000000⟩), (29, ⟨true, 5828364838314542944073234393333129, 109951162777600000000000000000000000000⟩), (25, ⟨true, 13697792328931166721057217261659680711, 720575940379279360000000000000000000000⟩)]),
    (6, [(15, ⟨true, 2534618840352409847220441778217708096274260123793252634899, 16615349947311448411297588253504307200000000000000000000000⟩), (5, ⟨false, 935805523758063936292510410765674289710676408288992922285495476308057903521, 160693804425899027554196209234116260252220299378279283530137600000000000000⟩)]),
    (5, [(1, ⟨true, 701151736686322231690494529968277127067319333471213306081386395190465131283014452573, 43135914667441023671467224139231409077819431076064915969765776398745600000000000000⟩)]),
    (4, [(21, ⟨false, 28922455465104128212733536431246093271822809818142281021, 120892581961462917470617600000000000000000000000000000000000000⟩), (13, ⟨false, 5894638169329553257071975771134167566858765579208303661893105566047, 17422457186352049329324779900506532426547200000000000000000000000000⟩), (7, ⟨true, 195798417068143969302647964343322104128777019827888966210248990909993530573169, 1961594292308337738698684194752395755031986076395010785280000000000000000000⟩)]),
    (3, [(20, ⟨true, 2279032064167881602307301399843508700963849445213737948641, 19342813113834066795298816000000000000000000000000000000000000000⟩)]),
    (2, [(3, ⟨false, 27407769238640603029519812029332644568125206829618645036173665623525457656927942784311, 65820182292848241686198767302294020199309434625343194533944360960000000000000000000⟩)]),
    (1, [(10, ⟨true, 231895509153599611048620922147016611844694160139127719956325663613514652079, 913438523331814323877303020447676887284957839360000000000000000000000000000⟩)]),
    (0, [(17, ⟨false, 232898621210097731535526830313292314760828862059400630369827663269, 20282409603651670423947251286016000000000000000000000000000000000000000000⟩), (9, ⟨false, 59881245478514945514901786766858628575650538032833994020398379418223601691069, 730750818665451459101842416358141509827966271488000000000000000000000000000000⟩), (0, ⟨true, 33211848002711899460918738753049042784303277275454689640907558115421797020455772035805788809, 69017463467905637874347558622770254524511089721703865551625242237992960000000000000000000⟩)])],
   [(16, [(39, ⟨false, 0, 1⟩), (39, ⟨true, 151596329485043, 500000000000000⟩), (38, ⟨true, 1094705125973487, 1600000000000000⟩), (37, ⟨true, 17986945806187071, 32000000000000000⟩), (34, ⟨true, 4313666493859629501, 52428800000000000000⟩)]),
    (15, [(39, ⟨true, 9546433442688667, 1000000000000000000⟩), (38, ⟨true, 7666760349101049, 160000000000000000⟩), (36, ⟨true, 780977565960410217, 2048000000000000000⟩), (33, ⟨true, 10423928356816393800171, 16777216000000000000000⟩), (13, ⟨true, 26282629947097451775603580720578681631899865641, 348449143727040986586495598010130648530944000000000000000000⟩)]),
    (14, [(39, ⟨false, 0, 1⟩), (39, ⟨false, 43107317673685831, 20000000000000000000⟩), (37, ⟨true, 2331129355614487827, 25600000000000000000⟩), (34, ⟨true, 931044831846418121301, 1310720000000000000000⟩), (14, ⟨true, 75689160323729974042518299601751830583471373391, 17422457186352049329324779900506532426547200000000000000⟩)]),
    (13, [(39, ⟨true, 6585406141707891207, 100000000000000000000000⟩), (38, ⟨false, 1495610964036973679, 1600000000000000000000⟩), (37, ⟨false, 592091209158896202609, 25600000000000000000000⟩)]),
    (12, [(33, ⟨false, 26803088572833412622192011, 167772160000000000000000000⟩)]),
    (11, [(37, ⟨true, 59307712794111391574223, 256000000000000000000000000⟩), (24, ⟨true, 485227253010967599712156630549657, 144115188075855872000000000000000⟩), (14, ⟨true, 27312123097304982056182180991922017593305355155621, 2177807148294006166165597487563316553318400000000000⟩)]),
    (10, [(39, ⟨false, 0, 1⟩), (29, ⟨true, 16093004598747623806502773038047, 10995116277760000000000000000000⟩), (19, ⟨true, 3061735456393393561969265887722233464431147, 3169126500570573503741758013440000000000000⟩)]),
    (9, [(32, ⟨false, 64665090613606134293236839517, 33554432000000000000000000000000⟩), (13, ⟨true, 978802256630762537716453369669326211259402135276356233, 1742245718635204932932477990050653242654720000000000000⟩)]),
    (8, [(27, ⟨false, 52838236832840163266398639327045521, 35184372088832000000000000000000000⟩)]),
    (7, [(36, ⟨false, 3598134893181117578031533609, 51200000000000000000000000000000000⟩), (30, ⟨true, 832623548330648992010462056190447, 687194767360000000000000000000000000⟩), (26, ⟨true, 13697792328931166721057217261659680711, 22517998136852480000000000000000000000⟩)]),
    (6, [(16, ⟨true, 10500563767174269367056115938330504970279077655714903773153, 1038459371706965525706099265844019200000000000000000000000⟩), (6, ⟨false, 133686503394009133756072915823667755672953772612713274612213639472579700503, 200867255532373784442745261542645325315275374222849104412672000000000000⟩)]),
    (5, [(2, ⟨true, 5709378427302909600908312601170256606119600286837022635234146360836644640447403399523, 2695994666715063979466701508701963067363714442254057248110361024921600000000000000⟩)]),
    (4, [(22, ⟨false, 4131779352157732601819076633035156181688972831163183003, 377789318629571617095680000000000000000000000000000000000000⟩), (14, ⟨false, 5894638169329553257071975771134167566858765579208303661893105566047, 217780714829400616616559748756331655331840000000000000000000000000⟩), (8, ⟨true, 83913607314918843986849127575709473198047294211952414090106710389997227388501, 7662477704329444291791735135751545918093695610918010880000000000000000000⟩)]),
    (3, [(21, ⟨true, 6837096192503644806921904199530526102891548335641213845923, 1208925819614629174706176000000000000000000000000000000000000000⟩)]),
    (2, [(4, ⟨false, 207515967092564565794935719650661451730090851709969740988172039720978465116740138224069, 4113761393303015105387422956393376262456839664083949658371522560000000000000000000⟩)]),
    (1, [(11, ⟨true, 1291989265284340690128030851961949694563296035060854439756671554418153061583, 57089907708238395242331438777979805455309864960000000000000000000000000000⟩)]),
    (0, [(18, ⟨false, 432526010818752929994549827724685727412967886681744027829679946071, 633825300114114700748351602688000000000000000000000000000000000000000000⟩), (10, ⟨false, 8554463639787849359271683823836946939378648290404856288628339916889085955867, 1141798154164767904846628775559596109106197299200000000000000000000000000000⟩), (1, ⟨true, 137591941725520726338091917691203177249256434426883714226617026478176016227602484148338267923, 2156795733372051183573361206961570453890971553803245798488288819937280000000000000000000⟩)])]⟩

def sk9 : Scl :=
  ⟨28, 1, 3, 8,
   [(16, [(39, ⟨true, 124122197312491, 2500000000000000⟩), (38, ⟨true, 187266054069759, 1000000000000000⟩), (37, ⟨true, 579549772574199, 3200000000000000⟩), (36, ⟨true, 1360357245846081, 16000000000000000⟩), (33, ⟨true, 25680989734862679, 6553600000000000000⟩)]),
    (15, [(38, ⟨true, 4855798325519841, 500000000000000000⟩), (37, ⟨true, 1671300698938983, 80000000000000000⟩), (35, ⟨true, 31269986575775199, 512000000000000000⟩), (32, ⟨true, 4693449593802354399, 131072000000000000000⟩), (12, ⟨true, 196181620502983628433259903358823, 20282409603651670423947251286016000000000000000000⟩)]),
    (14, [(39, ⟨false, 7025236028461987, 15625000000000000000⟩), (38, ⟨false, 9028583327136723, 2500000000000000000⟩), (36, ⟨true, 29892356890639677, 800000000000000000⟩), (33, ⟨true, 939796932497620239, 10240000000000000000⟩), (13, ⟨true, 697900577840509529715872300338149, 633825300114114700748351602688000000000000000⟩)]),
    (13, [(38, ⟨true, 567937170756120501, 3125000000000000000000⟩), (37, ⟨false, 55278924414005313, 50000000000000000000⟩), (36, ⟨false, 3126306237222653289, 200000000000000000000⟩)]),
    (12, [(32, ⟨false, 842544674034458649849, 20480000000000000000000⟩)]),
    (11, [(36, ⟨true, 53094840071423640903, 125000000000000000000000⟩), (23, ⟨true, 21444176462522751546045759, 137438953472000000000000000⟩), (13, ⟨true, 17581773774630468951756778265170209, 1237940039285380274899124224000000000000⟩)]),
    (10, [(39, ⟨true, 4863809078230228861, 61035156250000000000000000⟩), (28, ⟨true, 1841372625363873540432921, 5242880000000000000000000⟩), (18, ⟨true, 27176273317229991581751692544711, 2305843009213693952000000000000000⟩)]),
    (9, [(31, ⟨false, 425742099224331233406699, 256000000000000000000000000⟩), (12, ⟨true, 35610590150437183648043067279464789079, 24758800785707605497982484480000000000000⟩)]),
    (8, [(26, ⟨false, 159311403522886722824868921, 262144000000000000000000000⟩)]),
    (7, [(35, ⟨false, 119058258607668638324703, 195312500000000000000000000000⟩), (29, ⟨true, 170714363402084052504843729, 102400000000000000000000000000⟩), (25, ⟨true, 13535265213149393097660216591, 41943040000000000000000000000⟩)]),
    (6, [(15, ⟨true, 36895362644284059310481747065866004415151, 7205759403792793600000000000000000000000⟩), (5, ⟨false, 255112793193327616570018897098483027088091363136441, 33230699894622896822595176507008614400000000000000⟩)]),
    (5, [(1, ⟨true, 86063576075799966061946805817881989693034665366886380577, 4355614296588012332331194975126633106636800000000000000⟩)]),
    (4, [(21, ⟨false, 24813145823683928951731925822324827039821, 104857600000000000000000000000000000000000000⟩), (13, ⟨false, 15284528263557166227753316465973352754229244003, 461168601842738790400000000000000000000000000⟩), (7, ⟨true, 8354218984681946917476438897649809889523407823075409, 6338253001141147007483516026880000000000000000000⟩)]),
    (3, [(20, ⟨true, 345039992398731637675323473836416975890019, 2097152000000000000000000000000000000000000000⟩)]),
    (2, [(3, ⟨false, 2866716053347071313904751493218071485506972901222502837139, 415383748682786210282439706337607680000000000000000000⟩)]),
    (1, [(10, ⟨true, 1416209294760648026004220524995068727197655487560661, 23611832414348226068480000000000000000000000000000⟩)]),
    (0, [(17, ⟨false, 35591750396985691144810336738966543278119076669, 1073741824000000000000000000000000000000000000000000⟩), (9, ⟨false, 64535437740431053789260064134081808769608000744260189, 2361183241434822606848000000000000000000000000000000⟩), (0, ⟨true, 8515660560049023498845607394539606712262194854186217022595969, 850705917302346158658436518579420528640000000000000000000⟩)])],
   [(16, [(39, ⟨false, 0, 1⟩), (39, ⟨true, 62422018023253, 125000000000000⟩), (38, ⟨true, 193183257524733, 200000000000000⟩), (37, ⟨true, 1360357245846081, 2000000000000000⟩), (34, ⟨true, 25680989734862679, 409600000000000000⟩)]),
    (15, [(39, ⟨true, 1618599441839947, 62500000000000000⟩), (38, ⟨true, 557100232979661, 5000000000000000⟩), (36, ⟨true, 10423328858591733, 16000000000000000⟩), (33, ⟨true, 10951382385538826931, 16384000000000000000⟩), (13, ⟨true, 588544861508950885299779710076469, 633825300114114700748351602688000000000000000000⟩)]),
    (14, [(39, ⟨false, 0, 1⟩), (39, ⟨false, 3009527775712241, 312500000000000000⟩), (37, ⟨true, 29892356890639677, 100000000000000000⟩), (34, ⟨true, 939796932497620239, 640000000000000000⟩), (14, ⟨true, 1628434681627855569337035367455681, 15845632502852867518708790067200000000000000⟩)]),
    (13, [(39, ⟨true, 189312390252040167, 390625000000000000000⟩), (38, ⟨false, 18426308138001771, 3125000000000000000⟩), (37, ⟨false, 3126306237222653289, 25000000000000000000⟩)]),
    (12, [(33, ⟨false, 1965937572747070182981, 2560000000000000000000⟩)]),
    (11, [(37, ⟨true, 53094840071423640903, 15625000000000000000000⟩), (24, ⟨true, 7148058820840917182015253, 1073741824000000000000000⟩), (14, ⟨true, 41024138807471094220765815952063821, 30948500982134506872478105600000000000⟩)]),
    (10, [(39, ⟨false, 0, 1⟩), (29, ⟨true, 6751699626334202981587377, 655360000000000000000000⟩), (19, ⟨true, 9058757772409997193917230848237, 11529215046068469760000000000000⟩)]),
    (9, [(32, ⟨false, 141914033074777077802233, 4000000000000000000000000⟩), (13, ⟨true, 106831770451311550944129201838394367237, 773712524553362671811952640000000000000⟩)]),
    (8, [(27, ⟨false, 690349415265842465574431991, 32768000000000000000000000⟩)]),
    (7, [(36, ⟨false, 39686086202556212774901, 6103515625000000000000000000⟩), (30, ⟨true, 56904787800694684168281243, 1280000000000000000000000000⟩), (26, ⟨true, 31582285497348583894540505379, 2621440000000000000000000000⟩)]),
    (6, [(16, ⟨true, 356655172228079240001323554970038042679793, 900719925474099200000000000000000000000⟩), (6, ⟨false, 85037597731109205523339632366161009029363787712147, 83076749736557242056487941267521536000000000000⟩)]),
    (5, [(2, ⟨true, 1635207945440199355176989310539757804167658641970841230963, 544451787073501541541399371890829138329600000000000000⟩)]),
    (4, [(22, ⟨false, 8271048607894642983910641940774942346607, 655360000000000000000000000000000000000000⟩), (14, ⟨false, 35663899281633387864757738420604489759868236007, 11529215046068469760000000000000000000000000⟩), (8, ⟨true, 8354218984681946917476438897649809889523407823075409, 49517601571415210995964968960000000000000000000⟩)]),
    (3, [(21, ⟨true, 2415279946791121463727264316854918831230133, 262144000000000000000000000000000000000000000⟩)]),
    (2, [(4, ⟨false, 50645316942464926545650609713519262910623187921597550122789, 51922968585348276285304963292200960000000000000000000⟩)]),
    (1, [(11, ⟨true, 18410720831888424338054866824935893453569521338288593, 2951479051793528258560000000000000000000000000000⟩)]),
    (0, [(18, ⟨false, 154230918386937994960844792535521687538515998899, 67108864000000000000000000000000000000000000000000⟩), (10, ⟨false, 21511812580143684596420021378027269589869333581420063, 7378697629483820646400000000000000000000000000000⟩), (1, ⟨true, 82318052080473893822174204813882864885201216923800097885094367, 53169119831396634916152282411213783040000000000000000000⟩)])]⟩

def sk10 : Scl :=
  ⟨54, 1, 5, 16,
   [(16, [(39, ⟨true, 478757046776751, 5000000000000000⟩), (38, ⟨true, 240770640946833, 800000000000000⟩), (37, ⟨true, 248378473960371, 1024000000000000⟩), (36, ⟨true, 194336749406583, 2048000000000000⟩), (33, ⟨true, 135878252565411, 53687091200000000⟩)]),
    (15, [(38, ⟨true, 24080795777577987, 800000000000000000⟩), (37, ⟨true, 2762762379878727, 51200000000000000⟩), (35, ⟨true, 5743466922081159, 52428800000000000⟩), (32, ⟨true, 31928228529267717, 858993459200000000⟩), (12, ⟨true, 74179631917455379486083984375, 1461501637330902918203684832716283019655932542976⟩)]),
    (14, [(39, ⟨false, 403142042997718047, 125000000000000000000⟩), (38, ⟨false, 172701268831906821, 8000000000000000000⟩), (36, ⟨true, 63532152108677331, 409600000000000000⟩), (33, ⟨true, 73978184190774771, 335544320000000000⟩), (13, ⟨true, 76339076506959940624237060546875, 5708990770823839524233143877797980545530986496⟩)]),
    (13, [(38, ⟨true, 41902693039539557847, 20000000000000000000000⟩), (37, ⟨false, 1359502377227238537, 128000000000000000000⟩), (36, ⟨false, 25628940302896078587, 204800000000000000000⟩)]),
    (12, [(32, ⟨false, 328906741615998286527, 1073741824000000000000⟩)]),
    (11, [(36, ⟨true, 6475642991990847188829, 512000000000000000000000⟩), (23, ⟨true, 8202262159589319242595, 18889465931478580854784⟩), (13, ⟨true, 13795048035872545029008388519287109375, 11150372599265311570767859136324180752990208⟩)]),
    (10, [(39, ⟨true, 61778390284716222513681, 7812500000000000000000000000⟩), (28, ⟨true, 132028579145365049170503, 28147497671065600000000⟩), (18, ⟨true, 3978493437689636428925947265625, 324518553658426726783156020576256⟩)]),
    (9, [(31, ⟨false, 3179086557066601781404779, 42949672960000000000000000⟩), (12, ⟨true, 138563834768242558484465110301971435546875, 356811923176489970264571492362373784095686656⟩)]),
    (8, [(26, ⟨false, 18882612015239628660281607, 900719925474099200000000⟩)]),
    (7, [(35, ⟨false, 1071350924396175813572879463, 5120000000000000000000000000000⟩), (29, ⟨true, 2107243666283242979510583921, 10995116277760000000000000000⟩), (25, ⟨true, 2062654293974788056543336639, 115292150460684697600000000⟩)]),
    (6, [(15, ⟨true, 20161693526505025990930253524170676828125, 21267647932558653966460912964485513216⟩), (5, ⟨false, 12411985062180044344947992993103015018277801573276519775390625, 401734511064747568885490523085290650630550748445698208825344⟩)]),
    (5, [(1, ⟨true, 2225364162107414238204626802725287831093510249047540128231048583984375, 26959946667150639794667015087019630673637144422540572481103610249216⟩)]),
    (4, [(21, ⟨false, 3780691286370607533449936873081281587732621, 1208925819614629174706176000000000000000000⟩), (13, ⟨false, 316995170791528677629120886057509840961580078125, 11150372599265311570767859136324180752990208⟩), (7, ⟨true, 10364067601880473917097499257170097456568665802478790283203125, 98079714615416886934934209737619787751599303819750539264⟩)]),
    (3, [(20, ⟨true, 67593244540764315546117986120841772291511853, 19342813113834066795298816000000000000000000⟩)]),
    (2, [(3, ⟨false, 680431259052372727538791611682872203429281800636090338230133056640625, 822752278660603021077484591278675252491367932816789931674304512⟩)]),
    (1, [(10, ⟨true, 520211812271364505518861916428251949135732896630859375, 2923003274661805836407369665432566039311865085952⟩)]),
    (0, [(17, ⟨false, 1646546893270463814745602174897721858588092526101, 811296384146066816957890051440640000000000000000⟩), (9, ⟨false, 6095726797321293837607852255248266513815002269033203125, 46768052394588893382517914646921056628989841375232⟩), (0, ⟨true, 386716868828246965913791490613026124567130998113498208113014698028564453125, 215679573337205118357336120696157045389097155380324579848828881993728⟩)])],
   [(16, [(39, ⟨false, 0, 1⟩), (39, ⟨true, 240770640946833, 250000000000000⟩), (38, ⟨true, 248378473960371, 160000000000000⟩), (37, ⟨true, 583010248219749, 640000000000000⟩), (34, ⟨true, 407634757696233, 8388608000000000⟩)]),
    (15, [(39, ⟨true, 24080795777577987, 250000000000000000⟩), (38, ⟨true, 2762762379878727, 8000000000000000⟩), (36, ⟨true, 5743466922081159, 4096000000000000⟩), (33, ⟨true, 223497599704874019, 268435456000000000⟩), (13, ⟨true, 133523337451419683074951171875, 22835963083295358096932575511191922182123945984⟩)]),
    (14, [(39, ⟨false, 0, 1⟩), (39, ⟨false, 172701268831906821, 2500000000000000000⟩), (37, ⟨true, 190596456326031993, 128000000000000000⟩), (34, ⟨true, 221934552572324313, 52428800000000000⟩), (14, ⟨true, 534373535548719584369659423828125, 356811923176489970264571492362373784095686656⟩)]),
    (13, [(39, ⟨true, 41902693039539557847, 6250000000000000000000⟩), (38, ⟨false, 1359502377227238537, 20000000000000000000⟩), (37, ⟨false, 76886820908688235761, 64000000000000000000⟩)]),
    (12, [(33, ⟨false, 2302347191311988005689, 335544320000000000000⟩)]),
    (11, [(37, ⟨true, 19426928975972541566487, 160000000000000000000000⟩), (24, ⟨true, 1640452431917863848519, 73786976294838206464⟩), (14, ⟨true, 96565336251107815203058719635009765625, 696898287454081973172991196020261297061888⟩)]),
    (10, [(39, ⟨false, 0, 1⟩), (29, ⟨true, 1452314370599015540875533, 8796093022208000000000⟩), (19, ⟨true, 19892467188448182144629736328125, 20282409603651670423947251286016⟩)]),
    (9, [(32, ⟨false, 3179086557066601781404779, 1677721600000000000000000⟩), (13, ⟨true, 249414902582836605272037198543548583984375, 5575186299632655785383929568162090376495104⟩)]),
    (8, [(27, ⟨false, 245473956198115172583660891, 281474976710656000000000⟩)]),
    (7, [(36, ⟨false, 1071350924396175813572879463, 400000000000000000000000000000⟩), (30, ⟨true, 2107243666283242979510583921, 343597383680000000000000000⟩), (26, ⟨true, 14438580057823516395803356473, 18014398509481984000000000⟩)]),
    (6, [(16, ⟨true, 116937822453729150747395470440189925603125, 1329227995784915872903807060280344576⟩), (6, ⟨false, 62059925310900221724739964965515075091389007866382598876953125, 12554203470773361527671578846415332832204710888928069025792⟩)]),
    (5, [(2, ⟨true, 25369151448024522315532745551068281274466016839141957461833953857421875, 1684996666696914987166688442938726917102321526408785780068975640576⟩)]),
    (4, [(22, ⟨false, 3780691286370607533449936873081281587732621, 18889465931478580854784000000000000000000⟩), (14, ⟨false, 2218966195540700743403846202402568886731060546875, 696898287454081973172991196020261297061888⟩), (8, ⟨true, 6218440561128284350258499554302058473941199481487274169921875, 383123885216472214589586756787577295904684780545900544⟩)]),
    (3, [(21, ⟨true, 1419458135356050626468477708537677218121748913, 6044629098073145873530880000000000000000000⟩)]),
    (2, [(4, ⟨false, 7212571345955150911911191083838445356350387086742557585239410400390625, 51422017416287688817342786954917203280710495801049370729644032⟩)]),
    (1, [(11, ⟨true, 4057652135716643143047122948140365203258716593720703125, 182687704666362864775460604089535377456991567872⟩)]),
    (0, [(18, ⟨false, 21405109612516029591692828273670384161645202839313, 126765060022822940149670320537600000000000000000⟩), (10, ⟨false, 6095726797321293837607852255248266513815002269033203125, 365375409332725729550921208179070754913983135744⟩), (1, ⟨true, 2242957839203832402299990645555551522489359789058289607055485248565673828125, 6739986666787659948666753771754907668409286105635143120275902562304⟩)])]⟩

def sk11 : Scl :=
  ⟨101, 1, 7, 32,
   [(16, [(39, ⟨true, 1790905989794513, 10000000000000000⟩), (38, ⟨true, 6304623820348553, 16000000000000000⟩), (37, ⟨true, 45526854356662077, 204800000000000000⟩), (36, ⟨true, 249348444803416847, 4096000000000000000⟩), (33, ⟨true, 59799259042328589357, 107374182400000000000000⟩)]),
    (15, [(38, ⟨true, 2358761843744185621, 32000000000000000000⟩), (37, ⟨true, 1894326492208507287, 20480000000000000000⟩), (35, ⟨true, 192966315060674783271, 2097152000000000000000⟩), (32, ⟨true, 367939422726242329257939, 34359738368000000000000000⟩), (12, ⟨true, 721554693053590057262793113615671633713600040687, 1532495540865888858358347027150309183618739122183602176000000000000000000⟩)]),
    (14, [(39, ⟨false, 21102354826123655009, 1000000000000000000000⟩), (38, ⟨false, 63279989323348930909, 640000000000000000000⟩), (36, ⟨true, 1140671303584553698251, 3276800000000000000000⟩), (33, ⟨true, 455580090173917840936413, 2684354560000000000000000⟩), (13, ⟨true, 15872708644555122325662659596577348422955656315107, 47890485652059026823698344598447161988085597568237568000000000000000⟩)]),
    (13, [(38, ⟨true, 57434178553632043283169, 3200000000000000000000000⟩), (37, ⟨false, 13043870842109031489593, 204800000000000000000000⟩), (36, ⟨false, 1721294606847568399668301, 3276800000000000000000000⟩)]),
    (12, [(32, ⟨false, 198402483234356576042545114423, 343597383680000000000000000000⟩)]),
    (11, [(36, ⟨true, 6085870060334049550569517723, 32768000000000000000000000000⟩), (23, ⟨true, 149375007352371856505444269676909398471, 2417851639229258349412352000000000000000⟩), (13, ⟨true, 1201130446213710880723162776236401423858934268574212909, 5986310706507378352962293074805895248510699696029696000000000000⟩)]),
    (10, [(39, ⟨true, 633198467920878225713801327, 1000000000000000000000000000000⟩), (28, ⟨true, 2675775402360383769615479548160618143, 360287970189639680000000000000000000⟩), (18, ⟨true, 5599804567090349726206715150503740790187369032473, 42535295865117307932921825928971026432000000000000000⟩)]),
    (9, [(31, ⟨false, 702663750972782373861289266236850859, 1099511627776000000000000000000000000⟩), (12, ⟨true, 1181762247053010581557713792888353968998071463131473575106599, 7662477704329444291791735135751545918093695610918010880000000000000⟩)]),
    (8, [(26, ⟨false, 262394710773525529655596072478294654740527, 4611686018427387904000000000000000000000⟩)]),
    (7, [(35, ⟨false, 1380066471746621126889370496237850887, 52428800000000000000000000000000000000⟩), (29, ⟨true, 319353186234196737727878714531987846932321, 112589990684262400000000000000000000000000⟩), (25, ⟨true, 750542175373412785502662450010597477825385839, 11805916207174113034240000000000000000000000⟩)]),
    (6, [(15, ⟨true, 6107618434033219231381259657803610054563358472690127393493042904599379, 8920298079412249256614287309059344602392166400000000000000000000000⟩), (5, ⟨false, 2254991155506514701467625757515487013783186456719510469424732601139239819455709590777441, 180925139433306555349329664076074856020734351040063381311652475012364265062400000000000000⟩)]),
    (5, [(1, ⟨true, 59637050660486678944056031152275878303904050322217821818777032929461001077211220882444786995082997, 6216540455122333026942278101835260501255701884966846468005799711164493712656667194163200000000000000⟩)]),
    (4, [(21, ⟨false, 86832880705650545449919400966848938242449045220632864507025677954749421, 126765060022822940149670320537600000000000000000000000000000000000000⟩), (13, ⟨false, 17697266872030591371941824502529634760801654473435055684671992738399858470486404847, 598631070650737835296229307480589524851069969602969600000000000000000000000000⟩), (7, ⟨true, 587838768120725544740577580876203084128625925093659155014341412995829545950107178526043180769, 552139707743245102994780468982162036196088717773630924413001937903943680000000000000000000⟩)]),
    (3, [(20, ⟨true, 40651065741048578979208105549931896855209601144076425710748292374228068773, 40564819207303340847894502572032000000000000000000000000000000000000000⟩)]),
    (2, [(3, ⟨false, 2904474995223053162216412311142228852373482724231270827427867927259920309964307045750134482451413310799, 592855496895058920568683443244482088208742321488079687882022830120515223756472320000000000000000000⟩)]),
    (1, [(10, ⟨true, 146001979347839428753437016879399645070667789354985685622285084849475181662845527434307339283, 502168138830934461106863153856613313288188435557122761031680000000000000000000000000000⟩)]),
    (0, [(17, ⟨false, 871175744481523285609453890300739810816478230918019705847214398325891180553284453189, 1361129467683753853853498429727072845824000000000000000000000000000000000000000000⟩), (9, ⟨false, 223990542920244267098131159476063547432272023403823371905869920524083919589159225830040832784989, 803469022129495137770981046170581301261101496891396417650688000000000000000000000000000000⟩), (0, ⟨true, 124231548727241990106965409378104338375170191933530969435928761677989663339977235624723223518724448500818165929, 19892929456391465686215289925872833604018246031893908697618559075726379880501335021322240000000000000000000⟩)])],
   [(16, [(39, ⟨false, 0, 1⟩), (39, ⟨true, 900660545764079, 500000000000000⟩), (38, ⟨true, 6503836336666011, 3200000000000000⟩), (37, ⟨true, 106863619201464363, 128000000000000000⟩), (34, ⟨true, 25628253875283681153, 1677721600000000000000⟩)]),
    (15, [(39, ⟨true, 336965977677740803, 1000000000000000000⟩), (38, ⟨true, 270618070315501041, 320000000000000000⟩), (36, ⟨true, 27566616437239254753, 16384000000000000000⟩), (33, ⟨true, 367939422726242329257939, 1073741824000000000000000⟩), (13, ⟨true, 927713176783187216480734003220149243346057195169, 11972621413014756705924586149611790497021399392059392000000000000000000⟩)]),
    (14, [(39, ⟨false, 0, 1⟩), (39, ⟨false, 9039998474764132987, 20000000000000000000⟩), (37, ⟨true, 488859130107665870679, 102400000000000000000⟩), (34, ⟨true, 195248610074536217544177, 41943040000000000000000⟩), (14, ⟨true, 15872708644555122325662659596577348422955656315107, 299315535325368917648114653740294762425534984801484800000000000000⟩)]),
    (13, [(39, ⟨true, 8204882650518863326167, 100000000000000000000000⟩), (38, ⟨false, 1863410120301290212799, 3200000000000000000000⟩), (37, ⟨false, 737697688648957885572129, 102400000000000000000000⟩)]),
    (12, [(33, ⟨false, 198402483234356576042545114423, 10737418240000000000000000000⟩)]),
    (11, [(37, ⟨true, 2608230025857449807386936167, 1024000000000000000000000000⟩), (24, ⟨true, 21339286764624550929349181382415628353, 4722366482869645213696000000000000000⟩), (14, ⟨true, 1201130446213710880723162776236401423858934268574212909, 37414441915671114706014331717536845303191873100185600000000000⟩)]),
    (10, [(39, ⟨false, 0, 1⟩), (29, ⟨true, 4204789917994888780824325004252399939, 11258999068426240000000000000000000⟩), (19, ⟨true, 799972081012907103743816450071962970026767004639, 53169119831396634916152282411213783040000000000000⟩)]),
    (9, [(32, ⟨false, 100380535853254624837327038033835837, 4294967296000000000000000000000000⟩), (13, ⟨true, 1519408603353870747717060590856455102997520452597608882279913, 59863107065073783529622930748058952485106996960296960000000000000⟩)]),
    (8, [(27, ⟨false, 487304462865118840788964134602547215946693, 144115188075855872000000000000000000000⟩)]),
    (7, [(36, ⟨false, 197152353106660160984195785176835841, 409600000000000000000000000000000000⟩), (30, ⟨true, 45621883747742391103982673504569692418903, 351843720888320000000000000000000000000⟩), (26, ⟨true, 750542175373412785502662450010597477825385839, 184467440737095516160000000000000000000000⟩)]),
    (6, [(16, ⟨true, 25302990655280479672865218582329241654619627958287670630185463461911713, 278759314981632789269196478408104518824755200000000000000000000000⟩), (6, ⟨false, 322141593643787814495375108216498144826169493817072924203533228734177117065101370111063, 113078212145816597093331040047546785012958969400039613319782796882727665664000000000000⟩)]),
    (5, [(2, ⟨true, 485615983949677242830170539382817866188932981195202263381470125282753865914434227185621836959961547, 194266889222572907091946190682351890664240683905213952125181240973890428520520849817600000000000000⟩)]),
    (4, [(22, ⟨false, 12404697243664363635702771566692705463207006460090409215289382564964203, 198070406285660843983859875840000000000000000000000000000000000000⟩), (14, ⟨false, 17697266872030591371941824502529634760801654473435055684671992738399858470486404847, 3741444191567111470601433171753684530319187310018560000000000000000000000000⟩), (8, ⟨true, 251930900623168090603104677518372750340839682182996780720432034141069805407188790796875648901, 1078397866686025591786680603480785226945485776901622899244144409968640000000000000000000⟩)]),
    (3, [(21, ⟨true, 121953197223145736937624316649795690565628803432229277132244877122684206319, 1267650600228229401496703205376000000000000000000000000000000000000000⟩)]),
    (2, [(4, ⟨false, 21991024963831688228209978927219732739399226340608193407668142877825110918301181917822446795703557924621, 18526734277970591267771357601390065256523197546502490246313213441266100742389760000000000000000000⟩)]),
    (1, [(11, ⟨true, 813439599223676817340577665470940879679434826406348819895588329875647440692996509991140890291, 15692754338466701909589473558019166040255888611160086282240000000000000000000000000000⟩)]),
    (0, [(18, ⟨false, 1617897811179971816131842939129945362944888143133465168001969596890940763884671127351, 21267647932558653966460912964485513216000000000000000000000000000000000000000000⟩), (10, ⟨false, 31998648988606323871161594210866221061753146200546195986552845789154845655594175118577261826427, 627710173538668076383578942320766641610235544446403451289600000000000000000000000000000⟩), (1, ⟨true, 514673559012859673300285267423575116125705080867485444805990584094528605265619976159567640291858429503389544563, 310827022756116651347113905091763025062785094248342323400289985558224685632833359708160000000000000000000⟩)])]⟩

end If97.Tm
