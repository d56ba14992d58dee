import Verif.Model.FloatInst
/-!
Run with `cd /verif/lean && lake env lean ../tools/validate.txt`.
Compares the model, run on IEEE doubles, with the verification tables of IAPWS-IF97
that /repo/tests/common/mod.rs lists.  Prints the worst relative error per table.
-/
open If97

def rel (a b : Float) : Float := Float.abs (a - b) / Float.abs b
def worst (l : List (Float × Float)) : Float := l.foldl (fun m x => if m < rel x.1 x.2 then rel x.1 x.2 else m) 0.0
def app (x : Option Float) : Float := x.getD (0.0/0.0)
def P (f : Float → Float → OIdRegionArgs → Option Float) (a b : Float) (o : Int) : Float := app (f a b (.ofId o))

def r1 : List (List Float) := [[3.0,300.0,0.100215168e-2,0.115331273e3,0.112324818e3,0.392294792,0.417301218e1,0.150773921e4],
 [80.0,300.0,0.971180894e-3,0.184142828e3,0.106448356e3,0.368563852,0.401008987e1,0.163469054e4],
 [3.0,500.0,0.120241800e-2,0.975542239e3,0.971934985e3,2.58041912,4.65580682,1.24071337e3]]
def r2 : List (List Float) := [[0.0035,300.0,0.394913866e2,0.254991145e4,0.241169160e4,0.852238967e1,0.191300162e1,0.427920172e3],
 [0.0035,700.0,0.923015898e2,0.333568375e4,0.301262819e4,0.101749996e2,0.208141274e1,0.644289068e3],
 [30.0,700.0,0.542946619e-2,0.263149474e4,0.246861076e4,0.517540298e1,0.103505092e2,0.480386523e3]]
def r5 : List (List Float) := [[0.5,1500.0, 1.38455090, 0.521976855e4, 4527.49310, 9.65408875, 2.61609445, 917.068690],
    [30.0,1500.0, 0.0230761299, 5167.23514, 4474.95124, 7.72970133, 2.72724317, 928.548002],
    [30.0,2000.0, 0.0311385219, 6571.22604, 5637.07038, 8.53640523, 2.88569882, 1067.36948]]
def g (l : List Float) (i : Nat) : Float := l.getD i 0.0
def six (f : Float → Float → Int → Float) (l : List Float) : List (Float × Float) :=
  [OV,OH,OU,OS,OCP,OW].zipIdx.map fun (o,i) => (f (g l 0) (g l 1) o, g l (i+2))
#eval ("r1", worst (r1.flatMap (six (fun p T o => P Rust.pt p (T-273.15) o))))
#eval ("r2", worst (r2.flatMap (six (fun p T o => P Rust.pt p (T-273.15) o))))
#eval ("r5", worst (r5.flatMap (six (fun p T o => P Rust.pt p (T-273.15) o))))
def r3Td : List (List Float) := [
    [650.0, 500.0, 0.255837018E2, 0.186343019E4, 0.181226279E4, 0.405427273E1, 0.138935717E2, 0.502005554E3],
    [650.0, 200.0, 0.222930643E2, 0.237512401E4, 0.226365868E4, 0.485438792E1, 0.446579342E2, 0.383444594E3],
    [750.0, 500.0, 0.783095639E2, 0.225868845E4, 0.210206932E4, 0.446971906E1, 0.634165359E1, 0.760696041E3]]
#eval ("r3", worst (r3Td.flatMap fun l => [OP,OH,OU,OS,OCP,OW].zipIdx.map fun (o,i) => (Td_reg3 (g l 0) (g l 1) o, g l (i+2))))
def r3v : List (List Float) := [
    [1.470853100e-3, 50.0, 630.0], [1.503831359e-3, 80.0, 670.0], [2.204728587e-3, 50.0, 710.0], [1.973692940e-3, 80.0, 750.0],
    [1.761696406e-3, 20.0, 630.0], [1.819560617e-3, 30.0, 650.0], [2.245587720e-3, 26.0, 656.0], [2.506897702e-3, 30.0, 670.0],
    [2.970225962e-3, 26.0, 661.0], [3.004627086e-3, 30.0, 675.0], [5.019029401e-3, 26.0, 671.0], [4.656470142e-3, 30.0, 690.0],
    [2.163198378e-3, 23.6, 649.0], [2.166044161e-3, 24.0, 650.0], [2.651081407e-3, 23.6, 652.0], [2.967802335e-3, 24.0, 654.0],
    [3.273916816e-3, 23.6, 653.0], [3.550329864e-3, 24.0, 655.0], [4.545001142e-3, 23.5, 655.0], [5.100267704e-3, 24.0, 660.0],
    [6.109525997e-3, 23.0, 660.0], [6.427325645e-3, 24.0, 670.0], [2.117860851e-3, 22.6, 646.0], [2.062374674e-3, 23.0, 646.0],
    [2.533063780e-3, 22.6, 648.6], [2.572971781e-3, 22.8, 649.3], [2.923432711e-3, 22.6, 649.0], [2.913311494e-3, 22.8, 649.7],
    [3.131208996e-3, 22.6, 649.1], [3.221160278e-3, 22.8, 649.9], [3.715596186e-3, 22.6, 649.4], [3.664754790e-3, 22.8, 650.2],
    [1.970999272e-3, 21.1, 640.0], [2.043919161e-3, 21.8, 643.0], [5.251009921e-3, 21.1, 644.0], [5.256844741e-3, 21.8, 648.0],
    [1.932829079e-3, 19.1, 635.0], [1.985387227e-3, 20.0, 638.0], [8.483262001e-3, 17.0, 626.0], [6.227528101e-3, 20.0, 640.0],
    [2.268366647e-3, 21.5, 644.6], [2.296350553e-3, 22.0, 646.1], [2.832373260e-3, 22.5, 648.6], [2.811424405e-3, 22.3, 647.9],
    [3.694032281e-3, 22.15, 647.5], [3.622226305e-3, 22.3, 648.1], [4.528072649e-3, 22.11, 648.0], [4.556905799e-3, 22.3, 649.0],
    [2.698354719e-3, 22.0, 646.84], [2.717655648e-3, 22.064, 647.05], [3.798732962e-3, 22.0, 646.89], [3.701940010e-3, 22.064, 647.15]]
#eval ("r3 v(p,T)", r3v.filterMap fun l => let e := rel (pT2v_reg3 (g l 1) (g l 2)) (g l 0); if e > 1e-9 then some (l, sub_region3_pT (g l 1) (g l 2), e) else none)
def t3 (f : Float → Float → Float) (l : List (List Float)) (k : Nat := 2) : List (Float × Float) := l.map fun r => (f (g r 0) (g r 1), g r k)
#eval ("2a..c ph", worst (t3 ph2T_reg2 [[0.001, 3000.0, 0.534433241E+03], [3.0, 3000.0, 0.575373370E+03], [3.0, 4000.0, 0.101077577E+04],[5.0, 3500.0, 0.801299102E+03], [5.0, 4000.0, 0.101531583E+04], [25.0, 3500.0, 0.875279054E+03],[40.0, 2700.0, 0.743056411E+03], [60.0, 2700.0, 0.791137067E+03], [60.0, 3200.0, 0.882756860E+03]]))
#eval ("2a..c ps", worst (t3 ps2T_reg2 [[0.1, 7.5, 0.399517097E+03], [0.1, 8.0, 0.514127081E+03], [2.5, 8.0, 0.103984917E+04],[8.0, 6.0, 0.600484040E+03], [8.0, 7.5, 0.106495556E+04], [90.0, 6.0, 0.103801126E+04],[20.0, 5.75, 0.697992849E+03], [80.0, 5.25, 0.854011484E+03], [80.0, 5.75, 0.949017998E+03]]))
#eval ("2a..c hs", (t3 hs2p_reg2 [[2800.0, 6.5, 1.371012767], [2800.0, 9.5, 1.879743844e-03], [4100.0, 9.5, 1.024788997e-01],[2800.0, 6.0, 4.793911442],[3600.0, 6.0, 8.395519209e+01],[3600.0, 7.0, 7.527161441],[2800.0, 5.1, 9.439202060E+01], [2800.0, 5.8, 8.414574124], [3400.0, 5.8, 8.376903879e+01]]))
#eval ("r3 phT", worst (t3 ph2T_reg3 [[20.0, 1700.0, 6.293083892e2, 1.749903962e-3],[50.0, 2000.0, 6.905718338e2, 1.908139035e-3],[100.0, 2100.0, 7.336163014e2, 1.676229776e-3],[20.0, 2500.0, 6.418418053e2, 6.670547043e-3],[50.0, 2400.0, 7.351848618e2, 2.801244590e-3],[100.0, 2700.0, 8.420460876e2, 2.404234998e-3]]))
#eval ("r3 phv", worst (t3 ph2v_reg3 [[20.0, 1700.0, 6.293083892e2, 1.749903962e-3],[50.0, 2000.0, 6.905718338e2, 1.908139035e-3],[100.0, 2100.0, 7.336163014e2, 1.676229776e-3],[20.0, 2500.0, 6.418418053e2, 6.670547043e-3],[50.0, 2400.0, 7.351848618e2, 2.801244590e-3],[100.0, 2700.0, 8.420460876e2, 2.404234998e-3]] 3))
#eval ("r3 psT", worst (t3 ps2T_reg3 [[20.0, 3.8, 6.282959869e2, 1.733791463e-3],[50.0, 3.6, 6.297158726e2, 1.469680170e-3],[100.0, 4.0, 7.056880237e2, 1.555893131e-3],[20.0, 5.0, 6.401176443e2, 6.262101987e-3],[50.0, 4.5, 7.163687517e2, 2.332634294e-3],[100.0, 5.0, 8.474332825e2, 2.449610757e-3]]))
#eval ("r3 psv", worst (t3 ps2v_reg3 [[20.0, 3.8, 6.282959869e2, 1.733791463e-3],[50.0, 3.6, 6.297158726e2, 1.469680170e-3],[100.0, 4.0, 7.056880237e2, 1.555893131e-3],[20.0, 5.0, 6.401176443e2, 6.262101987e-3],[50.0, 4.5, 7.163687517e2, 2.332634294e-3],[100.0, 5.0, 8.474332825e2, 2.449610757e-3]] 3))
#eval ("r3 hsp", worst (t3 hs2p_reg3 [[1700.0, 3.8, 25.5570324620], [2000.0, 4.2, 45.40873468], [2100.0, 4.3, 60.78123340100],[2600.0, 5.1, 34.34999263], [2400.0, 4.7, 63.6392488750], [2700.0, 5.0, 88.3904328]]))
#eval ("r1 phT", worst (t3 ph2T_reg1 [[3.0, 500.0, 391.798509], [80.0, 500.0, 378.108626], [80.0, 1500.0, 611.041229]]))
#eval ("r1 psT", worst (t3 ps2T_reg1 [[3.0, 0.5, 307.842258], [80.0, 0.5, 309.979785], [80.0, 3.0, 565.899909]]))
#eval ("r1 hsp", worst (t3 hs2p_reg1 [[0.001, 0.0, 9.800980612e-4], [90.0, 0.0, 91.92954727], [1500.0, 3.4, 58.68294423]]))
#eval ("psat", worst ([(300.0, 0.00353658941), (500.0, 2.63889776), (600.0, 12.3443146)].map fun (T,p) => (p_saturation T, p)))
#eval ("Tsat", worst ([(0.1, 372.755919), (1.0, 453.035632), (10.0, 584.149488)].map fun (p,T) => (T_saturation p, T)))
#eval ("visc", worst [(viscosity 998.0 298.15, 889.735100e-6), (viscosity 1200.0 298.15, 1437.649467e-6), (viscosity 1000.0 373.15, 307.883622e-6)])
#eval [P Rust.tv 300.0 0.2 OP, P Rust.th 300.0 3000.0 OP, P Rust.hs 2000.0 5.0 OT, P Rust.hs 500.0 1.5 OT, P Rust.hs 1900.0 4.2 OT, P Rust.pv 1.0 0.3 OT, P Rust.pv 10.0 0.00112 OT, app (Rust.hx 1500.0 0.35 OT)]
