import Verif.Lemmas.Saturation

/-! The saturation pressure between 350 °C and the critical temperature lies between two fourth powers of quadratic
polynomials (coefficients in the Bernstein basis, generated). -/

namespace If97
namespace Sat
open Set

private theorem bern_pos {c0 c1 c2 c3 c4 c5 c6 c7 c8 s t : ℝ} (hs : 0 ≤ s) (ht : 0 ≤ t) (hst : 0 < s + t) (h0 : 0 < c0) (h1 : 0 < c1)
    (h2 : 0 < c2) (h3 : 0 < c3) (h4 : 0 < c4) (h5 : 0 < c5) (h6 : 0 < c6) (h7 : 0 < c7) (h8 : 0 < c8) :
    0 < c0 * t ^ 8 + c1 * s * t ^ 7 + c2 * s ^ 2 * t ^ 6 + c3 * s ^ 3 * t ^ 5 + c4 * s ^ 4 * t ^ 4 + c5 * s ^ 5 * t ^ 3 +
      c6 * s ^ 6 * t ^ 2 + c7 * s ^ 7 * t + c8 * s ^ 8 := by
  rcases hs.eq_or_lt with h | h
  · subst h
    have : 0 < t := by linarith
    have : 0 < c0 * t ^ 8 := by positivity
    simpa using this
  · positivity

private theorem bern_pos6 {c0 c1 c2 c3 c4 c5 c6 s t : ℝ} (hs : 0 ≤ s) (ht : 0 ≤ t) (hst : 0 < s + t) (h0 : 0 < c0) (h1 : 0 < c1)
    (h2 : 0 < c2) (h3 : 0 < c3) (h4 : 0 < c4) (h5 : 0 < c5) (h6 : 0 < c6) :
    0 < c0 * t ^ 6 + c1 * s * t ^ 5 + c2 * s ^ 2 * t ^ 4 + c3 * s ^ 3 * t ^ 3 + c4 * s ^ 4 * t ^ 2 + c5 * s ^ 5 * t +
      c6 * s ^ 6 := by
  rcases hs.eq_or_lt with h | h
  · subst h
    have : 0 < t := by linarith
    have : 0 < c0 * t ^ 6 := by positivity
    simpa using this
  · positivity

/-- the quadratics -/
noncomputable def bq (c T : ℝ) : ℝ := 2.675 * (T / 647.096) ^ 2 - 1.1753 * (T / 647.096) + c

private theorem Qf_clear (b T : ℝ) (h : T ≠ 650.17534844798) :
    Qf b (th T) * (650.17534844798 - T) ^ 2 = qE b * ((650.17534844798 - T) * T + 0.23855557567849) ^ 2 +
      qF b * (650.17534844798 - T) * ((650.17534844798 - T) * T + 0.23855557567849) + qG b * (650.17534844798 - T) ^ 2 := by
  have hn : T - 650.17534844798 ≠ 0 := sub_ne_zero.2 h
  rw [Qf_eq, th]
  generalize qE b = e, qF b = f, qG b = g
  field_simp
  ring

private theorem Qs_clear (b T : ℝ) (h : T ≠ 650.17534844798) :
    (2 * qA (th T) * b + qB (th T)) * (650.17534844798 - T) ^ 2 =
      (2 * b - 17.073846940092) * ((650.17534844798 - T) * T + 0.23855557567849) ^ 2 +
      (2 * 1167.0521452767 * b + 12020.824702470) * (650.17534844798 - T) * ((650.17534844798 - T) * T + 0.23855557567849) +
      (-(2 * 724213.16703206) * b - 3232555.0322333) * (650.17534844798 - T) ^ 2 := by
  have hn : T - 650.17534844798 ≠ 0 := sub_ne_zero.2 h
  rw [qA, qB, th]
  field_simp
  norm_num
  ring

private theorem lo_0 {T : ℝ} (h1 : (12463 / 20) ≤ T) (h2 : T ≤ (635123 / 1000)) : 0 < (Qf (bq 0.66744 T) (th T)) * (650.17534844798 - T) ^ 2 := by
  have hT : T ≠ 650.17534844798 := by intro h; subst h; norm_num at h2
  have hs : 0 ≤ T - (12463 / 20) := by linarith
  have ht : 0 ≤ (635123 / 1000) - T := by linarith
  have key := bern_pos (c0 := (3608312231175564103432731576232656352022653672430427147381424455160213 / 144620134157939180164668173497722375924285291672325128000000000000000000000)) (c1 := (62711898287456210942586030259749866051009777860489683628332309593683849 / 72310067078969590082334086748861187962142645836162564000000000000000000000)) (c2 := (1179592318704996781124947071716704395477837373765114434176527141290534431 / 289240268315878360329336346995444751848570583344650256000000000000000000000)) (c3 := (1234649072170654044878460088225876967680100842466984179420500099573758303 / 144620134157939180164668173497722375924285291672325128000000000000000000000)) (c4 := (4567940517225779519074651453564973951743683993267257754110383509427497593 / 462784429305405376526938155192711602957712933351440409600000000000000000000)) (c5 := (7797155290488872669144708095453180373468775665388833030312965298823308029 / 1156961073263513441317345387981779007394282333378601024000000000000000000000)) (c6 := (783223586229819934089631240341352100499603871176482965914738633199486031 / 289240268315878360329336346995444751848570583344650256000000000000000000000)) (c7 := (685197018694038176680724223376882949074377429920727512271188162061096859 / 1156961073263513441317345387981779007394282333378601024000000000000000000000)) (c8 := (125907791421137663651327557942711622903728165279833026362795887606610723 / 2313922146527026882634690775963558014788564666757202048000000000000000000000)) hs ht (by norm_num) (by norm_num) (by norm_num) (by norm_num)
    (by norm_num) (by norm_num) (by norm_num) (by norm_num) (by norm_num) (by norm_num)
  refine lt_of_lt_of_eq key ?_
  rw [Qf_clear _ _ hT, bq, qE, qF, qG]
  norm_num
  ring

private theorem lo_1 {T : ℝ} (h1 : (635123 / 1000) ≤ T) (h2 : T ≤ (1282219 / 2000)) : 0 < (Qf (bq 0.66744 T) (th T)) * (650.17534844798 - T) ^ 2 := by
  have hT : T ≠ 650.17534844798 := by intro h; subst h; norm_num at h2
  have hs : 0 ≤ T - (635123 / 1000) := by linarith
  have ht : 0 ≤ (1282219 / 2000) - T := by linarith
  have key := bern_pos (c0 := (125907791421137663651327557942711622903728165279833026362795887606610723 / 9038758384871198760291760843607648495267830729520320500000000000000000000)) (c1 := (825696478359613787135206471935656525770360553437268804082362489218231817 / 9038758384871198760291760843607648495267830729520320500000000000000000000)) (c2 := (4608138671407823646130588571232530957306238281629615427676284967947861183 / 18077516769742397520583521687215296990535661459040641000000000000000000000)) (c3 := (356974917481625522826387419889582010066596543896355215664183617314752161 / 903875838487119876029176084360764849526783072952032050000000000000000000)) (c4 := (2147253161031465812571689013030234208311707418470046493343509554875715859 / 5784805366317567206586726939908895036971411666893005120000000000000000000)) (c5 := (31323057883643103217571144416423227888930687653211506919260855135196729743 / 144620134157939180164668173497722375924285291672325128000000000000000000000)) (c6 := (11092419698698284799289297461784400607374221075871530861641319875532212627 / 144620134157939180164668173497722375924285291672325128000000000000000000000)) (c7 := (2189900134792927613881561661408359120161608483791005444257214263945638949 / 144620134157939180164668173497722375924285291672325128000000000000000000000)) (c8 := (18670571666624397969847177726792371758916157954628082166117530428065339 / 14462013415793918016466817349772237592428529167232512800000000000000000000)) hs ht (by norm_num) (by norm_num) (by norm_num) (by norm_num)
    (by norm_num) (by norm_num) (by norm_num) (by norm_num) (by norm_num) (by norm_num)
  refine lt_of_lt_of_eq key ?_
  rw [Qf_clear _ _ hT, bq, qE, qF, qG]
  norm_num
  ring

private theorem lo_2 {T : ℝ} (h1 : (1282219 / 2000) ≤ T) (h2 : T ≤ (80887 / 125)) : 0 < (Qf (bq 0.66744 T) (th T)) * (650.17534844798 - T) ^ 2 := by
  have hT : T ≠ 650.17534844798 := by intro h; subst h; norm_num at h2
  have hs : 0 ≤ T - (1282219 / 2000) := by linarith
  have ht : 0 ≤ (80887 / 125) - T := by linarith
  have key := bern_pos (c0 := (18670571666624397969847177726792371758916157954628082166117530428065339 / 14462013415793918016466817349772237592428529167232512800000000000000000000)) (c1 := (797391331866976061293986774878420361264976788949487702321590604544815291 / 144620134157939180164668173497722375924285291672325128000000000000000000000)) (c2 := (1344858078216623931176273256074829295097799211980906668091954259726447021 / 144620134157939180164668173497722375924285291672325128000000000000000000000)) (c3 := (295705648921539542552920356543447757185848051107242841407104303497773757 / 28924026831587836032933634699544475184857058334465025600000000000000000000)) (c4 := (386859407085245294277950842864324563109933422456188141590945388282249549 / 28924026831587836032933634699544475184857058334465025600000000000000000000)) (c5 := (375840777427810694478798683306170383314176305455343393777069297823 / 22349100312463557210161733884573908032855293754300000000000000000000)) (c6 := (4348677736892714991525864315461066153153361718268760836043331 / 345375343263805636415025496751237962108486125000000000000000000)) (c7 := (1238789013377447593695598179643204877204316801905969303 / 266865614424911942289108182364933458179687500000000000000)) (c8 := (13188781449193267838064121372575785257297159123 / 20620249114884958513814656740648486328125000000000)) hs ht (by norm_num) (by norm_num) (by norm_num) (by norm_num)
    (by norm_num) (by norm_num) (by norm_num) (by norm_num) (by norm_num) (by norm_num)
  refine lt_of_lt_of_eq key ?_
  rw [Qf_clear _ _ hT, bq, qE, qF, qG]
  norm_num
  ring

private theorem lo_s {T : ℝ} (h1 : 623.15 ≤ T) (h2 : T ≤ 647.096) : 2 * qA (th T) * bq 0.66744 T + qB (th T) < 0 := by
  have hT : T ≠ 650.17534844798 := by intro h; subst h; norm_num at h2
  have hs : 0 ≤ T - (12463 / 20) := by norm_num at h1 ⊢; linarith
  have ht : 0 ≤ (80887 / 125) - T := by norm_num at h2 ⊢; linarith
  have key := bern_pos6 (c0 := (505666920109964477271682930226514206211659688499249931389 / 164472790981717537533583151469346483200000000000000000000)) (c1 := (25716019678043281223633038595491093009773199023227595008071 / 2055909887271469219169789393366831040000000000000000000000)) (c2 := (40417104827388907624486457222951492772540017796846394649687 / 2055909887271469219169789393366831040000000000000000000000)) (c3 := (15152030348053080443883602690635000953778295205793657875769 / 1027954943635734609584894696683415520000000000000000000000)) (c4 := (21376009886088347313214169266270400064995209236750334603529 / 4111819774542938438339578786733662080000000000000000000000)) (c5 := (18217073579597616141000800234572134924913653747570509 / 25417061916889849038409007545920000000000000000000000)) (c6 := (1722841115576385389400013525619175641572850077 / 52371542845553774686515360000000000000000000000)) hs ht (by norm_num) (by norm_num) (by norm_num) (by norm_num)
    (by norm_num) (by norm_num) (by norm_num) (by norm_num)
  have e : 0 < -(2 * qA (th T) * bq 0.66744 T + qB (th T)) * (650.17534844798 - T) ^ 2 := by
    refine lt_of_lt_of_eq key ?_
    rw [neg_mul, Qs_clear _ _ hT, bq]
    norm_num
    ring
  have := (pos_iff_pos_of_mul_pos e).2 (by have : 650.17534844798 - T ≠ 0 := by intro h; exact hT (by linarith)
                                           positivity)
  linarith

theorem psat_lo {T : ℝ} (h1 : 623.15 ≤ T) (h2 : T ≤ 647.096) : bq 0.66744 T ^ 4 < psat T := by
  have hm : T ∈ Icc (273 : ℝ) 648 := ⟨by linarith, by linarith⟩
  have hp : 0 < (650.17534844798 - T) ^ 2 := by have : 0 < 650.17534844798 - T := by norm_num at h2 ⊢; linarith
                                                positivity
  have key : 0 < (Qf (bq 0.66744 T) (th T)) * (650.17534844798 - T) ^ 2 := by
    rcases le_total T (635123 / 1000) with g0 | g0
    · exact lo_0 (by norm_num at *; linarith) g0
    rcases le_total T (1282219 / 2000) with g1 | g1
    · exact lo_1 (by norm_num at *; linarith) g1
    exact lo_2 (by norm_num at *; linarith) (by norm_num at *; linarith)
  have hq := (pos_iff_pos_of_mul_pos key).2 hp
  exact lt_psat hm (lo_s h1 h2) (by unfold bq; nlinarith [sq_nonneg (T / 647.096 - 1)]) hq

private theorem hi_0 {T : ℝ} (h1 : (12463 / 20) ≤ T) (h2 : T ≤ (635123 / 1000)) : 0 < -(Qf (bq 0.66763 T) (th T)) * (650.17534844798 - T) ^ 2 := by
  have hT : T ≠ 650.17534844798 := by intro h; subst h; norm_num at h2
  have hs : 0 ≤ T - (12463 / 20) := by linarith
  have ht : 0 ≤ (635123 / 1000) - T := by linarith
  have key := bern_pos (c0 := (16841610018382608092610865743820173942838770663996970812311781797131 / 71417350201451446994897863455665370826807551443123520000000000000000000)) (c1 := (23309069697689418060779189641665839903921998660850243302684287955853933 / 24103355692989863360778028916287062654047548612054188000000000000000000000)) (c2 := (147412157603205975022721929418227154209487263457040350401179326235440111 / 96413422771959453443112115665148250616190194448216752000000000000000000000)) (c3 := (19048411070539311693616318181991349523094905772600084958435338444234289 / 16068903795326575573852019277524708436031699074702792000000000000000000000)) (c4 := (143459234186852418970726068922240594572586177295633668207750258123933 / 246818362296216200814367016102779521577446897787434885120000000000000000)) (c5 := (29930601320836333604017310570649187762654345993213881930558303549726413 / 77130738217567562754489692532118600492952155558573401600000000000000000000)) (c6 := (9659109327754610828291660739626974645666866391984233105923216667880109 / 32137807590653151147704038555049416872063398149405584000000000000000000000)) (c7 := (48498387929733087910366938619215176160324705313956122252013698980674359 / 385653691087837813772448462660593002464760777792867008000000000000000000000)) (c8 := (15201339578075798845880712413155519029422880414346031826625283410235647 / 771307382175675627544896925321186004929521555585734016000000000000000000000)) hs ht (by norm_num) (by norm_num) (by norm_num) (by norm_num)
    (by norm_num) (by norm_num) (by norm_num) (by norm_num) (by norm_num) (by norm_num)
  refine lt_of_lt_of_eq key ?_
  rw [neg_mul, Qf_clear _ _ hT, bq, qE, qF, qG]
  norm_num
  ring

private theorem hi_1 {T : ℝ} (h1 : (635123 / 1000) ≤ T) (h2 : T ≤ (80887 / 125)) : 0 < -(Qf (bq 0.66763 T) (th T)) * (650.17534844798 - T) ^ 2 := by
  have hT : T ≠ 650.17534844798 := by intro h; subst h; norm_num at h2
  have hs : 0 ≤ T - (635123 / 1000) := by linarith
  have ht : 0 ≤ (80887 / 125) - T := by linarith
  have key := bern_pos (c0 := (15201339578075798845880712413155519029422880414346031826625283410235647 / 771307382175675627544896925321186004929521555585734016000000000000000000000)) (c1 := (8123592077208144761853195631780997341673148666756903595665396477912313 / 42850410120870868196938718073399222496084530865874112000000000000000000000)) (c2 := (144103448644518417281841341671610147575568912755901434016951342629158257 / 192826845543918906886224231330296501232380388896433504000000000000000000000)) (c3 := (572494215983881848260369330185799875286206996920857017595064451942242403 / 385653691087837813772448462660593002464760777792867008000000000000000000000)) (c4 := (82051366234085701280179443290240615647065059829125991821031146246552659 / 51420492145045041836326461688079066995301437039048934400000000000000000000)) (c5 := (1102622263372619710545092000386388453440075744738295543115481791467 / 1191952016664723051208625807177275095085615666896000000000000000000000)) (c6 := (1946377673512299692594548172217939557100605769647412833626681 / 7368007322961186910187210597359743191647704000000000000000000000)) (c7 := (53263152260556419485963860594477231907956386601163067 / 1897711035910484922944769296817304591500000000000000000000)) (c8 := (20527799681087380218188860419658938294144466391 / 70383783645473991727154028341413500000000000000000000)) hs ht (by norm_num) (by norm_num) (by norm_num) (by norm_num)
    (by norm_num) (by norm_num) (by norm_num) (by norm_num) (by norm_num) (by norm_num)
  refine lt_of_lt_of_eq key ?_
  rw [neg_mul, Qf_clear _ _ hT, bq, qE, qF, qG]
  norm_num
  ring

private theorem hi_s {T : ℝ} (h1 : 623.15 ≤ T) (h2 : T ≤ 647.096) : 2 * qA (th T) * bq 0.66763 T + qB (th T) < 0 := by
  have hT : T ≠ 650.17534844798 := by intro h; subst h; norm_num at h2
  have hs : 0 ≤ T - (12463 / 20) := by norm_num at h1 ⊢; linarith
  have ht : 0 ≤ (80887 / 125) - T := by norm_num at h2 ⊢; linarith
  have key := bern_pos6 (c0 := (37917912208503351030518532453583090583306369557216461572227 / 12335459323628815315018736360200986240000000000000000000000)) (c1 := (25710836931354348021212084847857831909369799937282893672787 / 2055909887271469219169789393366831040000000000000000000000)) (c2 := (40408336428482808968768223412484231698619667413293816178137 / 2055909887271469219169789393366831040000000000000000000000)) (c3 := (45445486496867402096597400858691125015027882204099606417527 / 3083864830907203828754684090050246560000000000000000000000)) (c4 := (21370688823828267572271249477720759571583953868498197127069 / 4111819774542938438339578786733662080000000000000000000000)) (c5 := (3642478521969655767515602134690958499243955108425933 / 5083412383377969807681801509184000000000000000000000)) (c6 := (7750758585458709278677082191608662906983221077 / 235671942804991986089319120000000000000000000000)) hs ht (by norm_num) (by norm_num) (by norm_num) (by norm_num)
    (by norm_num) (by norm_num) (by norm_num) (by norm_num)
  have e : 0 < -(2 * qA (th T) * bq 0.66763 T + qB (th T)) * (650.17534844798 - T) ^ 2 := by
    refine lt_of_lt_of_eq key ?_
    rw [neg_mul, Qs_clear _ _ hT, bq]
    norm_num
    ring
  have := (pos_iff_pos_of_mul_pos e).2 (by have : 650.17534844798 - T ≠ 0 := by intro h; exact hT (by linarith)
                                           positivity)
  linarith

theorem psat_hi {T : ℝ} (h1 : 623.15 ≤ T) (h2 : T ≤ 647.096) : psat T < bq 0.66763 T ^ 4 := by
  have hm : T ∈ Icc (273 : ℝ) 648 := ⟨by linarith, by linarith⟩
  have hp : 0 < (650.17534844798 - T) ^ 2 := by have : 0 < 650.17534844798 - T := by norm_num at h2 ⊢; linarith
                                                positivity
  have key : 0 < -(Qf (bq 0.66763 T) (th T)) * (650.17534844798 - T) ^ 2 := by
    rcases le_total T (635123 / 1000) with g0 | g0
    · exact hi_0 (by norm_num at *; linarith) g0
    exact hi_1 (by norm_num at *; linarith) (by norm_num at *; linarith)
  have hq := (pos_iff_pos_of_mul_pos key).2 hp
  exact psat_lt hm (hi_s h1 h2) (by linarith)

end Sat
end If97
