import Mathlib.Data.Nat.Notation
import Mathlib.Data.Int.Notation

/-!
# Tables of the class Extrap

SymplecticRK/include/extrap.hpp: the elements `q[0]`, ..., `q[63]` as integers with a common power of ten.  (The file
is not included by any other; it cannot be compiled as it stands, line 8: `Class`.)
-/

namespace Odes.Symp

/-- `Extrap<double>`, extrap.hpp 13-55, times 10^16. -/
def extrapD : List ℤ :=
  [494207617176911, 133004602296517, -5718248318056980, -62055720602245400,
   -386725198664074000, -1511072851342910000, -3811890119637250000, -6333289221842700000,
   1153672809513120, 2410999059542900, 22609341397476400, 215389478160587000,
   1317960898633420000, 5113823504373540000, 12849447920800800000, 21305287284656600000,
   1486480617427280, -955980746451521, -39523457891753900, -401210656884122000,
   -2439227185308080000, -9376650688764740000, -23404098271705400000, -38664963958878900000,
   1944262589000780, 5758332459056980, 64150624999706600, 595490753984586000,
   3517038298633320000, 13284868191708400000, 32796873357645700000, 53871472020128300000,
   1625405503340010, -3640309393525000, -79942252639880500, -740694933841702000,
   -4239998865521300000, -15637805488455300000, -38021577137511800000, -61959680529755600000,
   1823947453445910, 8400084897917680, 94498826700629000, 783013654646260000,
   4237387847023030000, 15103415699296200000, 35987122737081200000, 58050686254027000000,
   775731089214138, -6245044726891620, -82028011287993200, -619905672855985000,
   -3139111558557970000, -10752445138740200000, -25047583779574700000, -39960004842082100000,
   894843038394246, 5155581460985840, 38325514990291100, 244055924180146000,
   1148592936974130000, 3793494433974550000, 8670688625288720000, 13710294443030100000]

/-- `Extrap<long double>`, extrap.hpp 59-143, times 10^34. -/
def extrapL : List ℤ :=
  [494207617175157450662821794059335, 133004602295002209836059857100117,
   -5718248318056468761896529220791670, -62055720602237183346428040062100400,
   -386725198664048985799450044541548000, -1511072851342123126582198907960840000,
   -3811890119636338177875169163660400000, -6333289221840531214188141079073770000,
   1153672809518468659736195590956310, 2410999059547614989521930573587250,
   22609341397476293382450521216493900, 215389478160572560079380621852761000,
   1317960898633427284426765002776180000, 5113823504371246386914340178861760000,
   12849447920798569451507904454582100000, 21305287284650718533552542043781900000,
   1486480617418856229339493252222150, -955980746459190567602634261608257,
   -39523457891762484819841651867916400, -401210656884172563811378052477426000,
   -2439227185308591367587300542064680000, -9376650688762424088736859795918430000,
   -23404098271705933472415218306193900000, -38664963958875528867349015391183500000,
   1944262589010400819496977173535860, 5758332459065895160178646657189090,
   64150624999720129857832757936266600, 595490753984660055149888835364618000,
   3517038298634166780769099440896770000, 13284868191705625044902684103862900000,
   32796873357647550043940058937618400000, 53871472020125379901590570405138000000,
   1625405503331183090455793185967650, -3640309393534350686645164234526880,
   -79942252639913441141486122640936800, -740694933841932031215479899587467000,
   -4239998865523232223082323797413600000, -15637805488455625656373448697372200000,
   -38021577137522580640421297097974700000, -61959680529766389725987095727898700000,
   1823947453452211716978447973474910, 8400084897923938429326321957776230,
   94498826700650308026546524431831000, 783013654646399718864485030550693000,
   4237387847024632716453620145749080000, 15103415699295881827412751857100000000,
   35987122737089888766178532328310100000, 58050686254035226602791416072132300000,
   775731089210792138605632936884569, -6245044726894454899376479016953250,
   -82028011287996550416662595845721700, -619905672855968378391324077340489000,
   -3139111558558518917463152564584910000, -10752445138737869844265485319668900000,
   -25047583779575766340980562363941700000, -39960004842079883943131760886942600000,
   894843038395248736306833750051900, 5155581460987411666803548785056980,
   38325514990300568943968400744833200, 244055924180199573646158200987642000,
   1148592936974642961307439739894660000, 3793494433974871101657305276342190000,
   8670688625291678503763708980943870000, 13710294443033496393879902368391200000]

end Odes.Symp
