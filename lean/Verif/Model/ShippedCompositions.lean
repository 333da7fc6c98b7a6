import Verif.Model.ShippedData

/-!
# The compositions of the species of the files in `databases/reaktoro`

Generated from the files: the distinct texts `Formula`, `Elements` and `Charge` of their species, separated by bars, in the order
in which they first appear; those in `odd` come last.
-/

namespace Verif.ShippedData

set_option maxRecDepth 100000

/-- Compositions 0 to 99. -/
def good0 : List Nat := [
  n!"Ca2MgSi2O7|2:Ca 1:Mg 2:Si 7:O|",
  n!"MnS|1:Mn 1:S|",
  n!"Na(AlSi3)O8|1:Na 1:Al 3:Si 8:O|",
  n!"KAl3(OH)6(SO4)2|1:K 3:Al 2:S 14:O 6:H|",
  n!"Mg2Al(AlSi)O5(OH)4|2:Mg 2:Al 1:Si 9:O 4:H|",
  n!"SiO2|1:Si 2:O|",
  n!"NaAlSi2O6(H2O)|1:Na 1:Al 2:Si 7:O 2:H|",
  n!"NaAlSi2O6|1:Na 1:Al 2:Si 6:O|",
  n!"Al2SiO5|2:Al 1:Si 5:O|",
  n!"Ca3Fe2Si3O12|3:Ca 2:Fe 3:Si 12:O|",
  n!"PbSO4|1:Pb 1:S 4:O|",
  n!"CaSO4|1:Ca 1:S 4:O|",
  n!"KFe3(AlSi3)O10(OH)2|1:K 3:Fe 1:Al 3:Si 12:O 2:H|",
  n!"Ca(Al2Si2)O8|1:Ca 2:Al 2:Si 8:O|",
  n!"CaCO3|1:Ca 1:C 3:O|",
  n!"Mg2(OH)2(CO3)(H2O)3|2:Mg 1:C 8:O 8:H|",
  n!"Cu3(OH)2(CO3)2|3:Cu 2:C 8:O 2:H|",
  n!"BaSO4|1:Ba 1:S 4:O|",
  n!"SnS2|1:Sn 2:S|",
  n!"AlO(OH)|1:Al 2:O 1:H|",
  n!"BeO|1:Be 1:O|",
  n!"Mg(OH)2|1:Mg 2:O 2:H|",
  n!"CaAl(AlSi)O6|1:Ca 2:Al 1:Si 6:O|",
  n!"SnO2|1:Sn 2:O|",
  n!"K(MgAl)Si4O10(OH)2|1:K 1:Mg 1:Al 4:Si 12:O 2:H|",
  n!"SrSO4|1:Sr 1:S 4:O|",
  n!"PbCO3|1:Pb 1:C 3:O|",
  n!"Ca(Al2Si4)O12(H2O)6|1:Ca 2:Al 4:Si 18:O 12:H|",
  n!"AgCl|1:Ag 1:Cl|",
  n!"FeAl2SiO5(OH)2|1:Fe 2:Al 1:Si 7:O 2:H|",
  n!"Mg3Si2O5(OH)4|3:Mg 2:Si 9:O 4:H|",
  n!"HgS|1:Hg 1:S|",
  n!"Mg5Al(AlSi3)O10(OH)8|5:Mg 2:Al 3:Si 18:O 8:H|",
  n!"Ca2Al3Si3O12(OH)|2:Ca 3:Al 3:Si 13:O 1:H|",
  n!"Cu|1:Cu|",
  n!"Mg2Al3(AlSi5)O18|2:Mg 4:Al 5:Si 18:O|",
  n!"Mg2Al3(AlSi5)O18(H2O)|2:Mg 4:Al 5:Si 19:O 2:H|",
  n!"Al2O3|2:Al 3:O|",
  n!"CuS|1:Cu 1:S|",
  n!"Mg7Si8O22(OH)2|7:Mg 8:Si 24:O 2:H|",
  n!"Cu2O|2:Cu 1:O|",
  n!"Fe5Al(AlSi3)O10(OH)8|5:Fe 2:Al 3:Si 18:O 8:H|",
  n!"Al2Si2O5(OH)4|2:Al 2:Si 9:O 4:H|",
  n!"CaMg(SiO3)2|1:Ca 1:Mg 2:Si 6:O|",
  n!"CaMg(CO3)2|1:Ca 1:Mg 2:C 6:O|",
  n!"Ca2FeAl2Si3O12(OH)|2:Ca 1:Fe 2:Al 3:Si 13:O 1:H|",
  n!"Fe2SiO4|2:Fe 1:Si 4:O|",
  n!"Na(Ca2Fe4Al)(Al2Si6)O22(OH)2|1:Na 2:Ca 4:Fe 3:Al 6:Si 24:O 2:H|",
  n!"(Ca2Fe5)Si8O22(OH)2|2:Ca 5:Fe 8:Si 24:O 2:H|",
  n!"FeO|1:Fe 1:O|",
  n!"CaF2|1:Ca 2:F|",
  n!"KMg3(AlSi3)O10(F)2|1:K 3:Mg 1:Al 3:Si 10:O 2:F|",
  n!"(Ca2Mg5)Si8O22(F)2|2:Ca 5:Mg 8:Si 22:O 2:F|",
  n!"Mg2SiO4|2:Mg 1:Si 4:O|",
  n!"PbS|1:Pb 1:S|",
  n!"Ca2(Al2Si)O7|2:Ca 2:Al 1:Si 7:O|",
  n!"Al(OH)3|1:Al 3:O 3:H|",
  n!"Na2(Mg3Al2)Si8O22(OH)2|2:Na 3:Mg 2:Al 8:Si 24:O 2:H|",
  n!"Au|1:Au|",
  n!"Fe3Si2O5(OH)4|3:Fe 2:Si 9:O 4:H|",
  n!"Ca3Al2Si3O12|3:Ca 2:Al 3:Si 12:O|",
  n!"Fe7Si8O22(OH)2|7:Fe 8:Si 24:O 2:H|",
  n!"NaCl|1:Na 1:Cl|",
  n!"CaFe(SiO3)2|1:Ca 1:Fe 2:Si 6:O|",
  n!"CaMg3(CO3)4|1:Ca 3:Mg 4:C 12:O|",
  n!"Mg5(OH)2(CO3)4(H2O)4|5:Mg 4:C 18:O 10:H|",
  n!"NaAl(SiO3)2|1:Na 1:Al 2:Si 6:O|",
  n!"K(AlSi3)O8|1:K 1:Al 3:Si 8:O|",
  n!"RuS2|1:Ru 2:S|",
  n!"Ca(Al2Si4)O12(H2O)4|1:Ca 2:Al 4:Si 16:O 8:H|",
  n!"Ca2(Al4Si8)O24(H2O)7|2:Ca 4:Al 8:Si 31:O 14:H|",
  n!"CaO|1:Ca 1:O|",
  n!"MgCO3|1:Mg 1:C 3:O|",
  n!"Cu2(OH)2(CO3)|2:Cu 1:C 5:O 2:H|",
  n!"MnO|1:Mn 1:O|",
  n!"Ca3Mg(SiO4)2|3:Ca 1:Mg 2:Si 8:O|",
  n!"Fe3Si4O10(OH)2|3:Fe 4:Si 12:O 2:H|",
  n!"CaMgSiO4|1:Ca 1:Mg 1:Si 4:O|",
  n!"KAl2(AlSi3)O10(OH)2|1:K 3:Al 3:Si 12:O 2:H|",
  n!"Na(AlSi)O4|1:Na 1:Al 1:Si 4:O|",
  n!"Pd|1:Pd|",
  n!"NaAl2(AlSi3)O10(OH)2|1:Na 3:Al 3:Si 12:O 2:H|",
  n!"Na(Ca2Mg4Al)(Al2Si6)O22(OH)2|1:Na 2:Ca 4:Mg 3:Al 6:Si 24:O 2:H|",
  n!"MgO|1:Mg 1:O|",
  n!"KMg3(AlSi3)O10(OH)2|1:K 3:Mg 1:Al 3:Si 12:O 2:H|",
  n!"Pt|1:Pt|",
  n!"K2O|2:K 1:O|",
  n!"FeS2|1:Fe 2:S|",
  n!"Al2Si4O10(OH)2|2:Al 4:Si 12:O 2:H|",
  n!"Pd(OH)2|1:Pd 2:O 2:H|",
  n!"Pd4S|4:Pd 1:S|",
  n!"PdO|1:Pd 1:O|",
  n!"PdS|1:Pd 1:S|",
  n!"PtS|1:Pt 1:S|",
  n!"PtS2|1:Pt 2:S|",
  n!"Rh|1:Rh|",
  n!"MnCO3|1:Mn 1:C 3:O|",
  n!"Na2(CaMg5)Si8O22(OH)2|2:Na 1:Ca 5:Mg 8:Si 24:O 2:H|",
  n!"SnO|1:Sn 1:O|",
  n!"Ru|1:Ru|"]

/-- Compositions 100 to 199. -/
def good1 : List Nat := [
  n!"TiO2|1:Ti 2:O|",
  n!"Rh2O3|2:Rh 3:O|",
  n!"RuO2|1:Ru 2:O|",
  n!"Mg4Si6O15(OH)2(H2O)2(H2O)4|4:Mg 6:Si 23:O 14:H|",
  n!"FeCO3|1:Fe 1:C 3:O|",
  n!"Ag|1:Ag|",
  n!"ZnCO3|1:Zn 1:C 3:O|",
  n!"Na2O|2:Na 1:O|",
  n!"ZnS|1:Zn 1:S|",
  n!"MgAl2O4|1:Mg 2:Al 4:O|",
  n!"Fe2Al9Si4O23(OH)|2:Fe 9:Al 4:Si 24:O 1:H|",
  n!"SrCO3|1:Sr 1:C 3:O|",
  n!"KCl|1:K 1:Cl|",
  n!"Mg3Si4O10(OH)2|3:Mg 4:Si 12:O 2:H|",
  n!"CuO|1:Cu 1:O|",
  n!"CaTiSiO5|1:Ca 1:Ti 1:Si 5:O|",
  n!"(Ca2Mg5)Si8O22(OH)2|2:Ca 5:Mg 8:Si 24:O 2:H|",
  n!"UO2|1:U 2:O|",
  n!"PdS2|1:Pd 2:S|",
  n!"Ca(Al2Si4)O12(H2O)2|1:Ca 2:Al 4:Si 14:O 4:H|",
  n!"CaSiO3|1:Ca 1:Si 3:O|",
  n!"ZnO|1:Zn 1:O|",
  n!"PbO|1:Pb 1:O|",
  n!"NaAlSi3O8|1:Na 1:Al 3:Si 8:O|",
  n!"Fe3Al2Si3O12|3:Fe 2:Al 3:Si 12:O|",
  n!"Mg4Al2(Al2Si2)O10(OH)8|4:Mg 4:Al 2:Si 18:O 8:H|",
  n!"Mg48Si34O85(OH)62|48:Mg 34:Si 147:O 62:H|",
  n!"Ca(Al2Si6)O16(H2O)5|1:Ca 2:Al 6:Si 21:O 10:H|",
  n!"Na(Ca2Fe5)(AlSi7)O22(OH)2|1:Na 2:Ca 5:Fe 1:Al 7:Si 24:O 2:H|",
  n!"FeSiO3|1:Fe 1:Si 3:O|",
  n!"Na(Ca2Mg5)(AlSi7)O22(F)2|1:Na 2:Ca 5:Mg 1:Al 7:Si 22:O 2:F|",
  n!"Ca(Al2Si7)O18(H2O)6|1:Ca 2:Al 7:Si 24:O 12:H|",
  n!"K(AlSi)O4|1:K 1:Al 1:Si 4:O|",
  n!"CaAl2Si2O7(OH)2(H2O)|1:Ca 2:Al 2:Si 10:O 4:H|",
  n!"Fe3O4|3:Fe 4:O|",
  n!"CaAl2(Al2Si2)O10(OH)2|1:Ca 4:Al 2:Si 12:O 2:H|",
  n!"Na2(Al2Si3)O10(H2O)2|2:Na 2:Al 3:Si 12:O 4:H|",
  n!"MgCO3(H2O)3|1:Mg 1:C 6:O 6:H|",
  n!"Ni|1:Ni|",
  n!"Ca(Al2Si5)O14(H2O)5|1:Ca 2:Al 5:Si 19:O 10:H|",
  n!"K2(Al2Si5)O14(H2O)5|2:K 2:Al 5:Si 19:O 10:H|",
  n!"Na2(Al2Si5)O14(H2O)5|2:Na 2:Al 5:Si 19:O 10:H|",
  n!"Ca2Al2Si3O10(OH)2|2:Ca 2:Al 3:Si 12:O 2:H|",
  n!"Mg3Al2Si3O12|3:Mg 2:Al 3:Si 12:O|",
  n!"Hg|1:Hg|",
  n!"Mn3Al2Si3O12|3:Mn 2:Al 3:Si 12:O|",
  n!"NaCa2(Al5Si13)O36(H2O)14|1:Na 2:Ca 5:Al 13:Si 50:O 28:H|",
  n!"Sn|1:Sn|",
  n!"Ag2S|2:Ag 1:S|",
  n!"NaFe(SiO3)2|1:Na 1:Fe 2:Si 6:O|",
  n!"Cu5FeS4|5:Cu 1:Fe 4:S|",
  n!"NiO|1:Ni 1:O|",
  n!"Cu2S|2:Cu 1:S|",
  n!"CuFeS2|1:Cu 1:Fe 2:S|",
  n!"Fe2Fe(FeSi)O5(OH)4|4:Fe 1:Si 9:O 4:H|",
  n!"MgSiO3|1:Mg 1:Si 3:O|",
  n!"(Fe5Al2)(Al2Si6)O22(OH)2|5:Fe 4:Al 6:Si 24:O 2:H|",
  n!"Na(Ca2Fe4Fe)(Al2Si6)O22(OH)2|1:Na 2:Ca 5:Fe 2:Al 6:Si 24:O 2:H|",
  n!"Fe2O3|2:Fe 3:O|",
  n!"Ca2SiO4|2:Ca 1:Si 4:O|",
  n!"Na(Ca2Mg4Fe)(Al2Si6)O22(OH)2|1:Na 2:Ca 4:Mg 1:Fe 2:Al 6:Si 24:O 2:H|",
  n!"Na2(Mg3Fe2)Si8O22(OH)2|2:Na 3:Mg 2:Fe 8:Si 24:O 2:H|",
  n!"FeS|1:Fe 1:S|",
  n!"Na2(Fe3Fe2)Si8O22(OH)2|2:Na 5:Fe 8:Si 24:O 2:H|",
  n!"KFe3(AlSi3)O10(OH)O|1:K 3:Fe 1:Al 3:Si 12:O 1:H|",
  n!"Ar|1:Ar|",
  n!"CH4|1:C 4:H|",
  n!"C6H6O|6:C 6:H 1:O|",
  n!"C7H8O|7:C 8:H 1:O|",
  n!"CO|1:C 1:O|",
  n!"CO2|1:C 2:O|",
  n!"C2H4|2:C 4:H|",
  n!"H2|2:H|",
  n!"H2O|2:H 1:O|",
  n!"H2S|2:H 1:S|",
  n!"He|1:He|",
  n!"Kr|1:Kr|",
  n!"N2|2:N|",
  n!"Ne|1:Ne|",
  n!"NH3|1:N 3:H|",
  n!"O2|2:O|",
  n!"Rn|1:Rn|",
  n!"S2|2:S|",
  n!"SO2|1:S 2:O|",
  n!"Xe|1:Xe|",
  n!"H2O|2:H 1:O|0.0",
  n!"C4H9NH2|4:C 11:H 1:N|0.0",
  n!"C4H9OH|4:C 10:H 1:O|0.0",
  n!"C4H8|4:C 8:H|0.0",
  n!"C4H6|4:C 6:H|0.0",
  n!"C7H15NH2|7:C 17:H 1:N|0.0",
  n!"C7H15OH|7:C 16:H 1:O|0.0",
  n!"C7H14|7:C 14:H|0.0",
  n!"C7H12|7:C 12:H|0.0",
  n!"C6H13NH2|6:C 15:H 1:N|0.0",
  n!"C6H13OH|6:C 14:H 1:O|0.0",
  n!"C6H12|6:C 12:H|0.0",
  n!"C6H10|6:C 10:H|0.0",
  n!"C8H17NH2|8:C 19:H 1:N|0.0",
  n!"C8H17OH|8:C 18:H 1:O|0.0"]

/-- Compositions 200 to 299. -/
def good2 : List Nat := [
  n!"C8H16|8:C 16:H|0.0",
  n!"C8H14|8:C 14:H|0.0",
  n!"C5H11NH2|5:C 13:H 1:N|0.0",
  n!"C5H11OH|5:C 12:H 1:O|0.0",
  n!"C5H10|5:C 10:H|0.0",
  n!"C5H8|5:C 8:H|0.0",
  n!"C3H7NH2|3:C 9:H 1:N|0.0",
  n!"C3H7OH|3:C 8:H 1:O|0.0",
  n!"C3H6|3:C 6:H|0.0",
  n!"C3H4|3:C 4:H|0.0",
  n!"C4H8O|4:C 8:H 1:O|0.0",
  n!"C7H14O|7:C 14:H 1:O|0.0",
  n!"C6H12O|6:C 12:H 1:O|0.0",
  n!"C4H7O3-|4:C 7:H 3:O|-1.0",
  n!"C4H8O3|4:C 8:H 3:O|0.0",
  n!"C10H19O3-|10:C 19:H 3:O|-1.0",
  n!"C10H20O3|10:C 20:H 3:O|0.0",
  n!"C7H13O3-|7:C 13:H 3:O|-1.0",
  n!"C7H14O3|7:C 14:H 3:O|0.0",
  n!"C6H11O3-|6:C 11:H 3:O|-1.0",
  n!"C6H12O3|6:C 12:H 3:O|0.0",
  n!"C9H17O3-|9:C 17:H 3:O|-1.0",
  n!"C9H18O3|9:C 18:H 3:O|0.0",
  n!"C8H15O3-|8:C 15:H 3:O|-1.0",
  n!"C8H16O3|8:C 16:H 3:O|0.0",
  n!"C5H9O3-|5:C 9:H 3:O|-1.0",
  n!"C5H10O3|5:C 10:H 3:O|0.0",
  n!"C8H16O|8:C 16:H 1:O|0.0",
  n!"C5H10O|5:C 10:H 1:O|0.0",
  n!"C4H9NO2|4:C 9:H 2:O 1:N|0.0",
  n!"CH3CONH2|2:C 5:H 1:O 1:N|0.0",
  n!"C2H3O2-|2:C 3:H 2:O|-1.0",
  n!"C2H4O2|2:C 4:H 2:O|0.0",
  n!"C3H6O|3:C 6:H 1:O|0.0",
  n!"C6H8O4-2|6:C 8:H 4:O|-2.0",
  n!"C6H10O4|6:C 10:H 4:O|0.0",
  n!"C3H7NO2|3:C 7:H 2:O 1:N|0.0",
  n!"C3H6NO2-|3:C 6:H 2:O 1:N|-1.0",
  n!"C5H10N2O3|5:C 10:H 2:N 3:O|0.0",
  n!"C4H8N2O3|4:C 8:H 3:O 2:N|0.0",
  n!"C4H7NO4|4:C 7:H 4:O 1:N|0.0",
  n!"C9H16O4|9:C 16:H 4:O|0.0",
  n!"C9H14O4-2|9:C 14:H 4:O|-2.0",
  n!"Ag(CO3)-|1:Ag 1:C 3:O|-1.0",
  n!"Ag(CO3)2-3|1:Ag 2:C 6:O|-3.0",
  n!"Ag+|1:Ag|1.0",
  n!"Ag+2|1:Ag|2.0",
  n!"AgCl|1:Ag 1:Cl|0.0",
  n!"AgCl2-|1:Ag 2:Cl|-1.0",
  n!"AgCl3-2|1:Ag 3:Cl|-2.0",
  n!"AgCl4-3|1:Ag 4:Cl|-3.0",
  n!"AgOH|1:Ag 1:O 1:H|0.0",
  n!"AgO-|1:Ag 1:O|-1.0",
  n!"AgNO3|1:Ag 1:N 3:O|0.0",
  n!"Al+3|1:Al|3.0",
  n!"AlO+|1:Al 1:O|1.0",
  n!"AlOH+2|1:Al 1:O 1:H|2.0",
  n!"HAlO2|1:H 1:Al 2:O|0.0",
  n!"AlO2-|1:Al 2:O|-1.0",
  n!"Au+|1:Au|1.0",
  n!"Au+3|1:Au|3.0",
  n!"B(OH)3|1:B 3:O 3:H|0.0",
  n!"C6H6|6:C 6:H|0.0",
  n!"C7H5O2-|7:C 5:H 2:O|-1.0",
  n!"C7H6O2|7:C 6:H 2:O|0.0",
  n!"BF4-|1:B 4:F|-1.0",
  n!"BO2-|1:B 2:O|-1.0",
  n!"C4H10|4:C 10:H|0.0",
  n!"C4H8O2|4:C 8:H 2:O|0.0",
  n!"Ba(HCO3)+|1:Ba 1:H 1:C 3:O|1.0",
  n!"Ba+2|1:Ba|2.0",
  n!"BaCl+|1:Ba 1:Cl|1.0",
  n!"BaOH+|1:Ba 1:O 1:H|1.0",
  n!"Be+2|1:Be|2.0",
  n!"BeOH+|1:Be 1:O 1:H|1.0",
  n!"BeO|1:Be 1:O|0.0",
  n!"HBeO2-|1:H 1:Be 2:O|-1.0",
  n!"BeO2-2|1:Be 2:O|-2.0",
  n!"Br-|1:Br|-1.0",
  n!"Br3-|3:Br|-1.0",
  n!"HBrO|1:H 1:Br 1:O|0.0",
  n!"BrO-|1:Br 1:O|-1.0",
  n!"BrO3-|1:Br 3:O|-1.0",
  n!"BrO4-|1:Br 4:O|-1.0",
  n!"CaOH+|1:Ca 1:O 1:H|1.0",
  n!"Ce+4|1:Ce|4.0",
  n!"HCN|1:H 1:C 1:N|0.0",
  n!"CN-|1:C 1:N|-1.0",
  n!"CO|1:C 1:O|0.0",
  n!"CO2|1:C 2:O|0.0",
  n!"CO3-2|1:C 3:O|-2.0",
  n!"Ca(HCO3)+|1:Ca 1:H 1:C 3:O|1.0",
  n!"Ca+2|1:Ca|2.0",
  n!"CaCl+|1:Ca 1:Cl|1.0",
  n!"CaCl2|1:Ca 2:Cl|0.0",
  n!"CaF+|1:Ca 1:F|1.0",
  n!"CaSO4|1:Ca 1:S 4:O|0.0",
  n!"Cd+2|1:Cd|2.0",
  n!"CdOH+|1:Cd 1:O 1:H|1.0",
  n!"CdO|1:Cd 1:O|0.0"]

/-- Compositions 300 to 399. -/
def good3 : List Nat := [
  n!"HCdO2-|1:H 1:Cd 2:O|-1.0",
  n!"CdO2-2|1:Cd 2:O|-2.0",
  n!"Ce+2|1:Ce|2.0",
  n!"Ce+3|1:Ce|3.0",
  n!"Cl-|1:Cl|-1.0",
  n!"HClO|1:H 1:Cl 1:O|0.0",
  n!"ClO-|1:Cl 1:O|-1.0",
  n!"ClO2-|1:Cl 2:O|-1.0",
  n!"ClO3-|1:Cl 3:O|-1.0",
  n!"ClO4-|1:Cl 4:O|-1.0",
  n!"Co+2|1:Co|2.0",
  n!"Co+3|1:Co|3.0",
  n!"CoOH+|1:Co 1:O 1:H|1.0",
  n!"CoO|1:Co 1:O|0.0",
  n!"HCoO2-|1:H 1:Co 2:O|-1.0",
  n!"CoO2-2|1:Co 2:O|-2.0",
  n!"CoOH+2|1:Co 1:O 1:H|2.0",
  n!"C6H4OHCH3|7:C 8:H 1:O|0.0",
  n!"Cr2O7-2|2:Cr 7:O|-2.0",
  n!"CrO4-2|1:Cr 4:O|-2.0",
  n!"Cs+|1:Cs|1.0",
  n!"CsBr|1:Cs 1:Br|0.0",
  n!"CsCl|1:Cs 1:Cl|0.0",
  n!"CsI|1:Cs 1:I|0.0",
  n!"CsOH|1:Cs 1:O 1:H|0.0",
  n!"Cu+|1:Cu|1.0",
  n!"Cu+2|1:Cu|2.0",
  n!"CuOH+|1:Cu 1:O 1:H|1.0",
  n!"CuO|1:Cu 1:O|0.0",
  n!"HCuO2-|1:H 1:Cu 2:O|-1.0",
  n!"CuO2-2|1:Cu 2:O|-2.0",
  n!"C10H19O2-|10:C 19:H 2:O|-1.0",
  n!"C10H20O2|10:C 20:H 2:O|0.0",
  n!"C4H6N2O2|4:C 6:H 2:N 2:O|0.0",
  n!"C6H3OHCH3CH3|8:C 10:H 1:O|0.0",
  n!"C12H23O2-|12:C 23:H 2:O|-1.0",
  n!"C12H24O2|12:C 24:H 2:O|0.0",
  n!"Dy+2|1:Dy|2.0",
  n!"Dy+3|1:Dy|3.0",
  n!"Dy+4|1:Dy|4.0",
  n!"C2H5NH2|2:C 7:H 1:N|0.0",
  n!"C2H6|2:C 6:H|0.0",
  n!"C2H5OH|2:C 6:H 1:O|0.0",
  n!"CH3COOCH2CH3|4:C 8:H 2:O|0.0",
  n!"C6H5C2H5|8:C 10:H|0.0",
  n!"C2H4|2:C 4:H|0.0",
  n!"C2H2|2:C 2:H|0.0",
  n!"Er+2|1:Er|2.0",
  n!"Er+3|1:Er|3.0",
  n!"Er+4|1:Er|4.0",
  n!"Eu+2|1:Eu|2.0",
  n!"Eu+3|1:Eu|3.0",
  n!"Eu+4|1:Eu|4.0",
  n!"F-|1:F|-1.0",
  n!"HCO2-|1:H 1:C 2:O|-1.0",
  n!"H2CO2|1:C 2:H 2:O|0.0",
  n!"Fe+2|1:Fe|2.0",
  n!"Fe+3|1:Fe|3.0",
  n!"FeCl+|1:Fe 1:Cl|1.0",
  n!"FeCl2|1:Fe 2:Cl|0.0",
  n!"FeOH+2|1:Fe 1:O 1:H|2.0",
  n!"FeOH+|1:Fe 1:O 1:H|1.0",
  n!"FeO+|1:Fe 1:O|1.0",
  n!"FeO|1:Fe 1:O|0.0",
  n!"HFeO2|1:H 1:Fe 2:O|0.0",
  n!"FeO2-|1:Fe 2:O|-1.0",
  n!"C5H9NO4|5:C 9:H 4:O 1:N|0.0",
  n!"C5H10N2O3|5:C 10:H 3:O 2:N|0.0",
  n!"C5H6O4-2|5:C 6:H 4:O|-2.0",
  n!"C5H8O4|5:C 8:H 4:O|0.0",
  n!"C2H5NO2|2:C 5:H 2:O 1:N|0.0",
  n!"C2H4NO2-|2:C 4:H 2:O 1:N|-1.0",
  n!"C2H3O3-|2:C 3:H 3:O|-1.0",
  n!"C2H4O3|2:C 4:H 3:O|0.0",
  n!"C4H8N2O3|4:C 8:H 2:N 3:O|0.0",
  n!"Ga+3|1:Ga|3.0",
  n!"GaOH+2|1:Ga 1:O 1:H|2.0",
  n!"GaO+|1:Ga 1:O|1.0",
  n!"HGaO2|1:H 1:Ga 2:O|0.0",
  n!"GaO2-|1:Ga 2:O|-1.0",
  n!"Gd+2|1:Gd|2.0",
  n!"Gd+3|1:Gd|3.0",
  n!"Gd+4|1:Gd|4.0",
  n!"H+|1:H|1.0",
  n!"C6H9O4-|6:C 9:H 4:O|-1.0",
  n!"C9H15O4-|9:C 15:H 4:O|-1.0",
  n!"C5H7O4-|5:C 7:H 4:O|-1.0",
  n!"C3H3O4-|3:C 3:H 4:O|-1.0",
  n!"C2HO4-|2:C 1:H 4:O|-1.0",
  n!"C7H11O4-|7:C 11:H 4:O|-1.0",
  n!"C10H17O4-|10:C 17:H 4:O|-1.0",
  n!"C8H13O4-|8:C 13:H 4:O|-1.0",
  n!"H2|2:H|0.0",
  n!"H2AsO3-|2:H 1:As 3:O|-1.0",
  n!"H2AsO4-|2:H 1:As 4:O|-1.0",
  n!"H2P2O7-2|2:H 2:P 7:O|-2.0",
  n!"H2PO4-|2:H 1:P 4:O|-1.0",
  n!"H2S|2:H 1:S|0.0",
  n!"H3VO4|3:H 1:V 4:O|0.0",
  n!"H2VO4-|2:H 1:V 4:O|-1.0"]

/-- Compositions 400 to 499. -/
def good4 : List Nat := [
  n!"H3P2O7-|3:H 2:P 7:O|-1.0",
  n!"H3PO4|3:H 1:P 4:O|0.0",
  n!"HAsO4-2|1:H 1:As 4:O|-2.0",
  n!"HCO3-|1:H 1:C 3:O|-1.0",
  n!"HCrO4-|1:H 1:Cr 4:O|-1.0",
  n!"C7H16|7:C 16:H|0.0",
  n!"C7H14O2|7:C 14:H 2:O|0.0",
  n!"C6H14|6:C 14:H|0.0",
  n!"C6H11O2-|6:C 11:H 2:O|-1.0",
  n!"C6H12O2|6:C 12:H 2:O|0.0",
  n!"HF|1:H 1:F|0.0",
  n!"HF2-|1:H 2:F|-1.0",
  n!"HNO3|1:H 1:N 3:O|0.0",
  n!"HO2-|1:H 2:O|-1.0",
  n!"HPO4-2|1:H 1:P 4:O|-2.0",
  n!"HS-|1:H 1:S|-1.0",
  n!"HSO3-|1:H 1:S 3:O|-1.0",
  n!"HSO4-|1:H 1:S 4:O|-1.0",
  n!"HSO5-|1:H 1:S 5:O|-1.0",
  n!"HSe-|1:H 1:Se|-1.0",
  n!"HSeO3-|1:H 1:Se 3:O|-1.0",
  n!"HSeO4-|1:H 1:Se 4:O|-1.0",
  n!"HSiO3-|1:H 1:Si 3:O|-1.0",
  n!"HVO4-2|1:H 1:V 4:O|-2.0",
  n!"He|1:He|0.0",
  n!"Hg+2|1:Hg|2.0",
  n!"HgOH+|1:Hg 1:O 1:H|1.0",
  n!"HgO|1:Hg 1:O|0.0",
  n!"HHgO2-|1:H 1:Hg 2:O|-1.0",
  n!"Hg2+2|2:Hg|2.0",
  n!"Ho+2|1:Ho|2.0",
  n!"Ho+3|1:Ho|3.0",
  n!"Ho+4|1:Ho|4.0",
  n!"I-|1:I|-1.0",
  n!"I3-|3:I|-1.0",
  n!"HIO|1:H 1:I 1:O|0.0",
  n!"IO-|1:I 1:O|-1.0",
  n!"IO3-|1:I 3:O|-1.0",
  n!"IO4-|1:I 4:O|-1.0",
  n!"C6H13NO2|6:C 13:H 2:O 1:N|0.0",
  n!"In+3|1:In|3.0",
  n!"InOH+2|1:In 1:O 1:H|2.0",
  n!"InO+|1:In 1:O|1.0",
  n!"HInO2|1:H 1:In 2:O|0.0",
  n!"InO2-|1:In 2:O|-1.0",
  n!"K+|1:K|1.0",
  n!"KBr|1:K 1:Br|0.0",
  n!"KCl|1:K 1:Cl|0.0",
  n!"KHSO4|1:K 1:H 1:S 4:O|0.0",
  n!"KI|1:K 1:I|0.0",
  n!"KOH|1:K 1:O 1:H|0.0",
  n!"KSO4-|1:K 1:S 4:O|-1.0",
  n!"Kr|1:Kr|0.0",
  n!"C3H5O3-|3:C 5:H 3:O|-1.0",
  n!"C3H6O3|3:C 6:H 3:O|0.0",
  n!"La+3|1:La|3.0",
  n!"Li+|1:Li|1.0",
  n!"LiCl|1:Li 1:Cl|0.0",
  n!"LiOH|1:Li 1:O 1:H|0.0",
  n!"Lu+3|1:Lu|3.0",
  n!"Lu+4|1:Lu|4.0",
  n!"C8H7O2-|8:C 7:H 2:O|-1.0",
  n!"C8H8O2|8:C 8:H 2:O|0.0",
  n!"C3H2O4-2|3:C 2:H 4:O|-2.0",
  n!"C3H4O4|3:C 4:H 4:O|0.0",
  n!"CH3NH2|1:C 5:H 1:N|0.0",
  n!"CH4|1:C 4:H|0.0",
  n!"CH3OH|1:C 4:H 1:O|0.0",
  n!"C5H11NO2S|5:C 11:H 2:O 1:N 1:S|0.0",
  n!"Mg(HCO3)+|1:Mg 1:H 1:C 3:O|1.0",
  n!"Mg+2|1:Mg|2.0",
  n!"MgCl+|1:Mg 1:Cl|1.0",
  n!"MgF+|1:Mg 1:F|1.0",
  n!"MgOH+|1:Mg 1:O 1:H|1.0",
  n!"Mn+2|1:Mn|2.0",
  n!"Mn+3|1:Mn|3.0",
  n!"MnCl+|1:Mn 1:Cl|1.0",
  n!"MnOH+|1:Mn 1:O 1:H|1.0",
  n!"MnO|1:Mn 1:O|0.0",
  n!"HMnO2-|1:H 1:Mn 2:O|-1.0",
  n!"MnO2-2|1:Mn 2:O|-2.0",
  n!"MnO4-|1:Mn 4:O|-1.0",
  n!"MnO4-2|1:Mn 4:O|-2.0",
  n!"MnSO4|1:Mn 1:S 4:O|0.0",
  n!"HMoO4-|1:H 1:Mo 4:O|-1.0",
  n!"MoO4-2|1:Mo 4:O|-2.0",
  n!"C4H7O2-|4:C 7:H 2:O|-1.0",
  n!"C6H5C4H9|10:C 14:H|0.0",
  n!"C6H5C7H15|13:C 20:H|0.0",
  n!"C6H5C6H13|12:C 18:H|0.0",
  n!"C8H18|8:C 18:H|0.0",
  n!"C6H5C8H17|14:C 22:H|0.0",
  n!"C5H12|5:C 12:H|0.0",
  n!"C6H5C5H11|11:C 16:H|0.0",
  n!"C6H5C3H7|9:C 12:H|0.0",
  n!"N2|2:N|0.0",
  n!"NH3|1:N 3:H|0.0",
  n!"NH4+|1:N 4:H|1.0",
  n!"NO2-|1:N 2:O|-1.0",
  n!"NO3-|1:N 3:O|-1.0"]

/-- Compositions 500 to 599. -/
def good5 : List Nat := [
  n!"C9H17O2-|9:C 17:H 2:O|-1.0",
  n!"C9H18O2|9:C 18:H 2:O|0.0",
  n!"Na+|1:Na|1.0",
  n!"NaBr|1:Na 1:Br|0.0",
  n!"NaCl|1:Na 1:Cl|0.0",
  n!"NaF|1:Na 1:F|0.0",
  n!"NaHSiO3|1:Na 1:H 1:Si 3:O|0.0",
  n!"NaI|1:Na 1:I|0.0",
  n!"NaOH|1:Na 1:O 1:H|0.0",
  n!"Nd+2|1:Nd|2.0",
  n!"Nd+3|1:Nd|3.0",
  n!"Nd+4|1:Nd|4.0",
  n!"Ne|1:Ne|0.0",
  n!"Ni+2|1:Ni|2.0",
  n!"NiCl+|1:Ni 1:Cl|1.0",
  n!"NiOH+|1:Ni 1:O 1:H|1.0",
  n!"NiO|1:Ni 1:O|0.0",
  n!"HNiO2-|1:H 1:Ni 2:O|-1.0",
  n!"NiO2-2|1:Ni 2:O|-2.0",
  n!"O2|2:O|0.0",
  n!"C8H15O2-|8:C 15:H 2:O|-1.0",
  n!"C8H16O2|8:C 16:H 2:O|0.0",
  n!"OH-|1:O 1:H|-1.0",
  n!"C2O4-2|2:C 4:O|-2.0",
  n!"C2H2O4|2:C 2:H 4:O|0.0",
  n!"C5H9O2-|5:C 9:H 2:O|-1.0",
  n!"C5H10O2|5:C 10:H 2:O|0.0",
  n!"C6H5OH|6:C 6:H 1:O|0.0",
  n!"C9H11NO2|9:C 11:H 2:O 1:N|0.0",
  n!"C7H10O4-2|7:C 10:H 4:O|-2.0",
  n!"C7H12O4|7:C 12:H 4:O|0.0",
  n!"PO4-3|1:P 4:O|-3.0",
  n!"C3H8|3:C 8:H|0.0",
  n!"C3H5O2-|3:C 5:H 2:O|-1.0",
  n!"C3H6O2|3:C 6:H 2:O|0.0",
  n!"Pb+2|1:Pb|2.0",
  n!"PbCl+|1:Pb 1:Cl|1.0",
  n!"PbCl2|1:Pb 2:Cl|0.0",
  n!"PbCl3-|1:Pb 3:Cl|-1.0",
  n!"PbCl4-2|1:Pb 4:Cl|-2.0",
  n!"PbOH+|1:Pb 1:O 1:H|1.0",
  n!"PbO|1:Pb 1:O|0.0",
  n!"HPbO2-|1:H 1:Pb 2:O|-1.0",
  n!"Pd(OH)+|1:Pd 1:O 1:H|1.0",
  n!"Pd(SO4)|1:Pd 1:S 4:O|0.0",
  n!"Pd(SO4)2-2|1:Pd 2:S 8:O|-2.0",
  n!"Pd(SO4)3-4|1:Pd 3:S 12:O|-4.0",
  n!"Pd+2|1:Pd|2.0",
  n!"PdCl+|1:Pd 1:Cl|1.0",
  n!"PdCl2|1:Pd 2:Cl|0.0",
  n!"PdCl3-|1:Pd 3:Cl|-1.0",
  n!"PdCl4-2|1:Pd 4:Cl|-2.0",
  n!"PdO|1:Pd 1:O|0.0",
  n!"Pr+2|1:Pr|2.0",
  n!"Pr+3|1:Pr|3.0",
  n!"Pr+4|1:Pr|4.0",
  n!"Pt(OH)+|1:Pt 1:O 1:H|1.0",
  n!"Pt(SO4)|1:Pt 1:S 4:O|0.0",
  n!"Pt(SO4)2-2|1:Pt 2:S 8:O|-2.0",
  n!"Pt(SO4)3-4|1:Pt 3:S 12:O|-4.0",
  n!"Pt+2|1:Pt|2.0",
  n!"PtCl+|1:Pt 1:Cl|1.0",
  n!"PtCl2|1:Pt 2:Cl|0.0",
  n!"PtCl3-|1:Pt 3:Cl|-1.0",
  n!"PtCl4-2|1:Pt 4:Cl|-2.0",
  n!"PtO|1:Pt 1:O|0.0",
  n!"Ra+2|1:Ra|2.0",
  n!"Rb+|1:Rb|1.0",
  n!"RbBr|1:Rb 1:Br|0.0",
  n!"RbCl|1:Rb 1:Cl|0.0",
  n!"RbF|1:Rb 1:F|0.0",
  n!"RbI|1:Rb 1:I|0.0",
  n!"RbOH|1:Rb 1:O 1:H|0.0",
  n!"ReO4-|1:Re 4:O|-1.0",
  n!"Rh(OH)+|1:Rh 1:O 1:H|1.0",
  n!"Rh(OH)+2|1:Rh 1:O 1:H|2.0",
  n!"Rh(SO4)|1:Rh 1:S 4:O|0.0",
  n!"Rh(SO4)+|1:Rh 1:S 4:O|1.0",
  n!"Rh(SO4)2-|1:Rh 2:S 8:O|-1.0",
  n!"Rh(SO4)2-2|1:Rh 2:S 8:O|-2.0",
  n!"Rh(SO4)3-3|1:Rh 3:S 12:O|-3.0",
  n!"Rh(SO4)3-4|1:Rh 3:S 12:O|-4.0",
  n!"Rh+2|1:Rh|2.0",
  n!"Rh+3|1:Rh|3.0",
  n!"RhCl+|1:Rh 1:Cl|1.0",
  n!"RhCl+2|1:Rh 1:Cl|2.0",
  n!"RhCl2|1:Rh 2:Cl|0.0",
  n!"RhCl2+|1:Rh 2:Cl|1.0",
  n!"RhCl3|1:Rh 3:Cl|0.0",
  n!"RhCl3-|1:Rh 3:Cl|-1.0",
  n!"RhCl4-|1:Rh 4:Cl|-1.0",
  n!"RhCl4-2|1:Rh 4:Cl|-2.0",
  n!"RhO|1:Rh 1:O|0.0",
  n!"RhO+|1:Rh 1:O|1.0",
  n!"Rn|1:Rn|0.0",
  n!"Ru(OH)+|1:Ru 1:O 1:H|1.0",
  n!"Ru(OH)+2|1:Ru 1:O 1:H|2.0",
  n!"RuO4-2|1:Ru 4:O|-2.0",
  n!"Ru(SO4)|1:Ru 1:S 4:O|0.0",
  n!"Ru(SO4)+|1:Ru 1:S 4:O|1.0"]

/-- Compositions 600 to 699. -/
def good6 : List Nat := [
  n!"Ru(SO4)2-|1:Ru 2:S 8:O|-1.0",
  n!"Ru(SO4)2-2|1:Ru 2:S 8:O|-2.0",
  n!"Ru(SO4)3-3|1:Ru 3:S 12:O|-3.0",
  n!"Ru(SO4)3-4|1:Ru 3:S 12:O|-4.0",
  n!"Ru+2|1:Ru|2.0",
  n!"Ru+3|1:Ru|3.0",
  n!"RuCl+|1:Ru 1:Cl|1.0",
  n!"RuCl+2|1:Ru 1:Cl|2.0",
  n!"RuCl2|1:Ru 2:Cl|0.0",
  n!"RuCl2+|1:Ru 2:Cl|1.0",
  n!"RuCl3|1:Ru 3:Cl|0.0",
  n!"RuCl3-|1:Ru 3:Cl|-1.0",
  n!"RuCl4-|1:Ru 4:Cl|-1.0",
  n!"RuCl4-2|1:Ru 4:Cl|-2.0",
  n!"RuCl5-2|1:Ru 5:Cl|-2.0",
  n!"RuCl6-3|1:Ru 6:Cl|-3.0",
  n!"RuO|1:Ru 1:O|0.0",
  n!"RuO+|1:Ru 1:O|1.0",
  n!"S2-2|2:S|-2.0",
  n!"S2O3-2|2:S 3:O|-2.0",
  n!"HS2O3-|1:H 2:S 3:O|-1.0",
  n!"H2S2O3|2:H 2:S 3:O|0.0",
  n!"S2O4-2|2:S 4:O|-2.0",
  n!"HS2O4-|1:H 2:S 4:O|-1.0",
  n!"H2S2O4|2:H 2:S 4:O|0.0",
  n!"S2O5-2|2:S 5:O|-2.0",
  n!"S2O6-2|2:S 6:O|-2.0",
  n!"S2O8-2|2:S 8:O|-2.0",
  n!"S3-2|3:S|-2.0",
  n!"S3O6-2|3:S 6:O|-2.0",
  n!"S4-2|4:S|-2.0",
  n!"S4O6-2|4:S 6:O|-2.0",
  n!"S5-2|5:S|-2.0",
  n!"S5O6-2|5:S 6:O|-2.0",
  n!"C10H16O4-2|10:C 16:H 4:O|-2.0",
  n!"C10H18O4|10:C 18:H 4:O|0.0",
  n!"C3H7NO3|3:C 7:H 3:O 1:N|0.0",
  n!"SO2|1:S 2:O|0.0",
  n!"SO3-2|1:S 3:O|-2.0",
  n!"SO4-2|1:S 4:O|-2.0",
  n!"C8H12O4-2|8:C 12:H 4:O|-2.0",
  n!"C8H14O4|8:C 14:H 4:O|0.0",
  n!"C4H4O4-2|4:C 4:H 4:O|-2.0",
  n!"C4H6O4|4:C 6:H 4:O|0.0",
  n!"Sc+3|1:Sc|3.0",
  n!"ScOH+2|1:Sc 1:O 1:H|2.0",
  n!"ScO+|1:Sc 1:O|1.0",
  n!"HScO2|1:H 1:Sc 2:O|0.0",
  n!"ScO2-|1:Sc 2:O|-1.0",
  n!"SeO3-2|1:Se 3:O|-2.0",
  n!"SeO4-2|1:Se 4:O|-2.0",
  n!"SiF6-2|1:Si 6:F|-2.0",
  n!"SiO2|1:Si 2:O|0.0",
  n!"Sm+2|1:Sm|2.0",
  n!"Sm+3|1:Sm|3.0",
  n!"Sm+4|1:Sm|4.0",
  n!"Sn+2|1:Sn|2.0",
  n!"SnO|1:Sn 1:O|0.0",
  n!"SnOH+|1:Sn 1:O 1:H|1.0",
  n!"HSnO2-|1:H 1:Sn 2:O|-1.0",
  n!"Sr(HCO3)+|1:Sr 1:H 1:C 3:O|1.0",
  n!"Sr+2|1:Sr|2.0",
  n!"SrCl+|1:Sr 1:Cl|1.0",
  n!"SrF+|1:Sr 1:F|1.0",
  n!"SrOH+|1:Sr 1:O 1:H|1.0",
  n!"C4H9NO3|4:C 9:H 3:O 1:N|0.0",
  n!"C6H5CH3|7:C 8:H|0.0",
  n!"C11H12N2O2|11:C 12:H 2:O 2:N|0.0",
  n!"C9H11NO3|9:C 11:H 3:O 1:N|0.0",
  n!"Tb+2|1:Tb|2.0",
  n!"Tb+3|1:Tb|3.0",
  n!"Tb+4|1:Tb|4.0",
  n!"Th+4|1:Th|4.0",
  n!"Tl+|1:Tl|1.0",
  n!"Tl+3|1:Tl|3.0",
  n!"TlOH|1:Tl 1:O 1:H|0.0",
  n!"TlOH+2|1:Tl 1:O 1:H|2.0",
  n!"TlO+|1:Tl 1:O|1.0",
  n!"HTlO2|1:H 1:Tl 2:O|0.0",
  n!"TlO2-|1:Tl 2:O|-1.0",
  n!"Tm+2|1:Tm|2.0",
  n!"Tm+3|1:Tm|3.0",
  n!"Tm+4|1:Tm|4.0",
  n!"C11H21O2-|11:C 21:H 2:O|-1.0",
  n!"C11H22O2|11:C 22:H 2:O|0.0",
  n!"H2NCONH2|4:H 2:N 1:C 1:O|0.0",
  n!"U+3|1:U|3.0",
  n!"U+4|1:U|4.0",
  n!"UO2+|1:U 2:O|1.0",
  n!"UO2+2|1:U 2:O|2.0",
  n!"C5H11NO2|5:C 11:H 2:O 1:N|0.0",
  n!"VO+|1:V 1:O|1.0",
  n!"VO+2|1:V 1:O|2.0",
  n!"VOH+|1:V 1:O 1:H|1.0",
  n!"VOH+2|1:V 1:O 1:H|2.0",
  n!"VO2+|1:V 2:O|1.0",
  n!"VOOH+|1:V 2:O 1:H|1.0",
  n!"WO4-2|1:W 4:O|-2.0",
  n!"HWO4-|1:H 1:W 4:O|-1.0",
  n!"Xe|1:Xe|0.0"]

/-- Compositions 700 to 799. -/
def good7 : List Nat := [
  n!"Y+3|1:Y|3.0",
  n!"YOH+2|1:Y 1:O 1:H|2.0",
  n!"YO+|1:Y 1:O|1.0",
  n!"HYO2|1:H 1:Y 2:O|0.0",
  n!"YO2-|1:Y 2:O|-1.0",
  n!"Yb+2|1:Yb|2.0",
  n!"Yb+3|1:Yb|3.0",
  n!"Yb+4|1:Yb|4.0",
  n!"Zn+2|1:Zn|2.0",
  n!"ZnCl+|1:Zn 1:Cl|1.0",
  n!"ZnCl2|1:Zn 2:Cl|0.0",
  n!"ZnCl3-|1:Zn 3:Cl|-1.0",
  n!"ZnOH+|1:Zn 1:O 1:H|1.0",
  n!"ZnO|1:Zn 1:O|0.0",
  n!"HZnO2-|1:H 1:Zn 2:O|-1.0",
  n!"ZnO2-2|1:Zn 2:O|-2.0",
  n!"BiCH3COO+2|1:Bi 2:C 3:H 2:O|2.0",
  n!"Bi(CH3COO)2+|1:Bi 4:C 6:H 4:O|1.0",
  n!"Bi(CH3COO)3|1:Bi 6:C 9:H 6:O|0.0",
  n!"DyCH3COO+2|1:Dy 2:C 3:H 2:O|2.0",
  n!"Dy(CH3COO)2+|1:Dy 4:C 6:H 4:O|1.0",
  n!"Dy(CH3COO)3|1:Dy 6:C 9:H 6:O|0.0",
  n!"HoCH3COO+2|1:Ho 2:C 3:H 2:O|2.0",
  n!"Ho(CH3COO)2+|1:Ho 4:C 6:H 4:O|1.0",
  n!"Ho(CH3COO)3|1:Ho 6:C 9:H 6:O|0.0",
  n!"ErCH3COO+2|1:Er 2:C 3:H 2:O|2.0",
  n!"Er(CH3COO)2+|1:Er 4:C 6:H 4:O|1.0",
  n!"Er(CH3COO)3|1:Er 6:C 9:H 6:O|0.0",
  n!"TmCH3COO+2|1:Tm 2:C 3:H 2:O|2.0",
  n!"Tm(CH3COO)2+|1:Tm 4:C 6:H 4:O|1.0",
  n!"Tm(CH3COO)3|1:Tm 6:C 9:H 6:O|0.0",
  n!"BeCH3COO+|1:Be 2:C 3:H 2:O|1.0",
  n!"Be(CH3COO)2|1:Be 4:C 6:H 4:O|0.0",
  n!"RaCH3COO+|1:Ra 2:C 3:H 2:O|1.0",
  n!"Ra(CH3COO)2|1:Ra 4:C 6:H 4:O|0.0",
  n!"AuCH3COO|1:Au 2:C 3:H 2:O|0.0",
  n!"Au(CH3COO)2-|1:Au 4:C 6:H 4:O|-1.0",
  n!"LiCH3COO|1:Li 2:C 3:H 2:O|0.0",
  n!"Li(CH3COO)2-|1:Li 4:C 6:H 4:O|-1.0",
  n!"NaCH3COO|1:Na 2:C 3:H 2:O|0.0",
  n!"Na(CH3COO)2-|1:Na 4:C 6:H 4:O|-1.0",
  n!"KCH3COO|1:K 2:C 3:H 2:O|0.0",
  n!"K(CH3COO)2-|1:K 4:C 6:H 4:O|-1.0",
  n!"MgCH3COO+|1:Mg 2:C 3:H 2:O|1.0",
  n!"Mg(CH3COO)2|1:Mg 4:C 6:H 4:O|0.0",
  n!"SrCH3COO+|1:Sr 2:C 3:H 2:O|1.0",
  n!"Sr(CH3COO)2|1:Sr 4:C 6:H 4:O|0.0",
  n!"BaCH3COO+|1:Ba 2:C 3:H 2:O|1.0",
  n!"Ba(CH3COO)2|1:Ba 4:C 6:H 4:O|0.0",
  n!"CuCH3COO|1:Cu 2:C 3:H 2:O|0.0",
  n!"Cu(CH3COO)2-|1:Cu 4:C 6:H 4:O|-1.0",
  n!"RbCH3COO|1:Rb 2:C 3:H 2:O|0.0",
  n!"Rb(CH3COO)2-|1:Rb 4:C 6:H 4:O|-1.0",
  n!"TlCH3COO|1:Tl 2:C 3:H 2:O|0.0",
  n!"Tl(CH3COO)2-|1:Tl 4:C 6:H 4:O|-1.0",
  n!"CsCH3COO|1:Cs 2:C 3:H 2:O|0.0",
  n!"Cs(CH3COO)2-|1:Cs 4:C 6:H 4:O|-1.0",
  n!"PbCH3COO+|1:Pb 2:C 3:H 2:O|1.0",
  n!"Pb(CH3COO)2|1:Pb 4:C 6:H 4:O|0.0",
  n!"MnCH3COO+|1:Mn 2:C 3:H 2:O|1.0",
  n!"Mn(CH3COO)2|1:Mn 4:C 6:H 4:O|0.0",
  n!"Mn(CH3COO)3-|1:Mn 6:C 9:H 6:O|-1.0",
  n!"CoCH3COO+|1:Co 2:C 3:H 2:O|1.0",
  n!"Co(CH3COO)2|1:Co 4:C 6:H 4:O|0.0",
  n!"Co(CH3COO)3-|1:Co 6:C 9:H 6:O|-1.0",
  n!"NiCH3COO+|1:Ni 2:C 3:H 2:O|1.0",
  n!"Ni(CH3COO)2|1:Ni 4:C 6:H 4:O|0.0",
  n!"Ni(CH3COO)3-|1:Ni 6:C 9:H 6:O|-1.0",
  n!"CuCH3COO+|1:Cu 2:C 3:H 2:O|1.0",
  n!"Cu(CH3COO)2|1:Cu 4:C 6:H 4:O|0.0",
  n!"Cu(CH3COO)3-|1:Cu 6:C 9:H 6:O|-1.0",
  n!"NH4CH3COO|1:N 2:C 7:H 2:O|0.0",
  n!"NH4(CH3COO)2-|1:N 4:C 10:H 4:O|-1.0",
  n!"UO2CH3COO+|1:U 2:C 3:H 4:O|1.0",
  n!"UO2(CH3COO)2|1:U 4:C 6:H 6:O|0.0",
  n!"UO2(CH3COO)3-|1:U 6:C 9:H 8:O|-1.0",
  n!"AgCH3COO|1:Ag 2:C 3:H 2:O|0.0",
  n!"Ag(CH3COO)2-|1:Ag 4:C 6:H 4:O|-1.0",
  n!"CdCH3COO+|1:Cd 2:C 3:H 2:O|1.0",
  n!"Cd(CH3COO)2|1:Cd 4:C 6:H 4:O|0.0",
  n!"Cd(CH3COO)3-|1:Cd 6:C 9:H 6:O|-1.0",
  n!"HgCH3COO+|1:Hg 2:C 3:H 2:O|1.0",
  n!"Hg(CH3COO)2|1:Hg 4:C 6:H 4:O|0.0",
  n!"Hg(CH3COO)3-|1:Hg 6:C 9:H 6:O|-1.0",
  n!"ScCH3COO+2|1:Sc 2:C 3:H 2:O|2.0",
  n!"Sc(CH3COO)2+|1:Sc 4:C 6:H 4:O|1.0",
  n!"Sc(CH3COO)3|1:Sc 6:C 9:H 6:O|0.0",
  n!"UCH3COO+2|1:U 2:C 3:H 2:O|2.0",
  n!"U(CH3COO)2+|1:U 4:C 6:H 4:O|1.0",
  n!"U(CH3COO)3|1:U 6:C 9:H 6:O|0.0",
  n!"PrCH3COO+2|1:Pr 2:C 3:H 2:O|2.0",
  n!"Pr(CH3COO)2+|1:Pr 4:C 6:H 4:O|1.0",
  n!"Pr(CH3COO)3|1:Pr 6:C 9:H 6:O|0.0",
  n!"LaCH3COO+2|1:La 2:C 3:H 2:O|2.0",
  n!"La(CH3COO)2+|1:La 4:C 6:H 4:O|1.0",
  n!"La(CH3COO)3|1:La 6:C 9:H 6:O|0.0",
  n!"NdCH3COO+2|1:Nd 2:C 3:H 2:O|2.0",
  n!"Nd(CH3COO)2+|1:Nd 4:C 6:H 4:O|1.0",
  n!"Nd(CH3COO)3|1:Nd 6:C 9:H 6:O|0.0",
  n!"CeCH3COO+2|1:Ce 2:C 3:H 2:O|2.0"]

/-- Compositions 800 to 899. -/
def good8 : List Nat := [
  n!"Ce(CH3COO)2+|1:Ce 4:C 6:H 4:O|1.0",
  n!"Ce(CH3COO)3|1:Ce 6:C 9:H 6:O|0.0",
  n!"GdCH3COO+2|1:Gd 2:C 3:H 2:O|2.0",
  n!"Gd(CH3COO)2+|1:Gd 4:C 6:H 4:O|1.0",
  n!"Gd(CH3COO)3|1:Gd 6:C 9:H 6:O|0.0",
  n!"SmCH3COO+2|1:Sm 2:C 3:H 2:O|2.0",
  n!"Sm(CH3COO)2+|1:Sm 4:C 6:H 4:O|1.0",
  n!"Sm(CH3COO)3|1:Sm 6:C 9:H 6:O|0.0",
  n!"YbCH3COO+2|1:Yb 2:C 3:H 2:O|2.0",
  n!"Yb(CH3COO)2+|1:Yb 4:C 6:H 4:O|1.0",
  n!"Yb(CH3COO)3|1:Yb 6:C 9:H 6:O|0.0",
  n!"EuCH3COO+2|1:Eu 2:C 3:H 2:O|2.0",
  n!"Eu(CH3COO)2+|1:Eu 4:C 6:H 4:O|1.0",
  n!"Eu(CH3COO)3|1:Eu 6:C 9:H 6:O|0.0",
  n!"YCH3COO+2|1:Y 2:C 3:H 2:O|2.0",
  n!"Y(CH3COO)2+|1:Y 4:C 6:H 4:O|1.0",
  n!"Y(CH3COO)3|1:Y 6:C 9:H 6:O|0.0",
  n!"LuCH3COO+2|1:Lu 2:C 3:H 2:O|2.0",
  n!"Lu(CH3COO)2+|1:Lu 4:C 6:H 4:O|1.0",
  n!"Lu(CH3COO)3|1:Lu 6:C 9:H 6:O|0.0",
  n!"TbCH3COO+2|1:Tb 2:C 3:H 2:O|2.0",
  n!"Tb(CH3COO)2+|1:Tb 4:C 6:H 4:O|1.0",
  n!"Tb(CH3COO)3|1:Tb 6:C 9:H 6:O|0.0",
  n!"Pb(CH3COO)3-|1:Pb 6:C 9:H 6:O|-1.0",
  n!"FeCH3COO+|1:Fe 2:C 3:H 2:O|1.0",
  n!"Fe(CH3COO)2|1:Fe 4:C 6:H 4:O|0.0",
  n!"ZnCH3COO+|1:Zn 2:C 3:H 2:O|1.0",
  n!"Zn(CH3COO)2|1:Zn 4:C 6:H 4:O|0.0",
  n!"Zn(CH3COO)3-|1:Zn 6:C 9:H 6:O|-1.0",
  n!"CaCH3COO+|1:Ca 2:C 3:H 2:O|1.0",
  n!"Ca(CH3COO)2|1:Ca 4:C 6:H 4:O|0.0",
  n!"AlCH3COO+2|1:Al 2:C 3:H 2:O|2.0",
  n!"Al(CH3COO)2+|1:Al 4:C 6:H 4:O|1.0",
  n!"Al(CH3COO)3|1:Al 6:C 9:H 6:O|0.0",
  n!"CH3CHO|2:C 4:H 1:O|0.0",
  n!"CH3(CH2)2CHO|4:C 8:H 1:O|0.0",
  n!"CH3(CH2)8CHO|10:C 20:H 1:O|0.0",
  n!"HCHO|1:C 2:H 1:O|0.0",
  n!"CH3(CH2)5CHO|7:C 14:H 1:O|0.0",
  n!"CH3(CH2)4CHO|6:C 12:H 1:O|0.0",
  n!"CH3(CH2)7CHO|9:C 18:H 1:O|0.0",
  n!"CH3(CH2)6CHO|8:C 16:H 1:O|0.0",
  n!"CH3(CH2)3CHO|5:C 10:H 1:O|0.0",
  n!"CH3CH2CHO|3:C 6:H 1:O|0.0",
  n!"U(OH)+2|1:U 1:O 1:H|2.0",
  n!"UO+|1:U 1:O|1.0",
  n!"HUO2|1:U 2:O 1:H|0.0",
  n!"U(OH)+3|1:U 1:O 1:H|3.0",
  n!"UO+2|1:U 1:O|2.0",
  n!"HUO2+|1:U 2:O 1:H|1.0",
  n!"UO2|1:U 2:O|0.0",
  n!"HUO3-|1:U 3:O 1:H|-1.0",
  n!"UO2OH|1:U 3:O 1:H|0.0",
  n!"UO3-|1:U 3:O|-1.0",
  n!"UO2OH+|1:U 3:O 1:H|1.0",
  n!"UO3|1:U 3:O|0.0",
  n!"HUO4-|1:U 4:O 1:H|-1.0",
  n!"UO4-2|1:U 4:O|-2.0",
  n!"Fr+|1:Fr|1.0",
  n!"OCN-|1:O 1:C 1:N|-1.0",
  n!"SCN-|1:S 1:C 1:N|-1.0",
  n!"SeCN-|1:Se 1:C 1:N|-1.0",
  n!"HNO2|1:H 1:N 2:O|0.0",
  n!"H2N2O2|2:H 2:N 2:O|0.0",
  n!"N2O2-2|2:N 2:O|-2.0",
  n!"N2H5+|2:N 5:H|1.0",
  n!"N2H6+2|2:N 6:H|2.0",
  n!"H3PO2|3:H 1:P 2:O|0.0",
  n!"H2PO2-|2:H 1:P 2:O|-1.0",
  n!"H3PO3|3:H 1:P 3:O|0.0",
  n!"H2PO3-|2:H 1:P 3:O|-1.0",
  n!"HPO3-2|1:H 1:P 3:O|-2.0",
  n!"P2O7-4|2:P 7:O|-4.0",
  n!"HP2O7-3|1:H 2:P 7:O|-3.0",
  n!"H4P2O7|4:H 2:P 7:O|0.0",
  n!"AsO4-3|1:As 4:O|-3.0",
  n!"H3AsO4|3:H 1:As 4:O|0.0",
  n!"AsO2-|1:As 2:O|-1.0",
  n!"HAsO2|1:H 1:As 2:O|0.0",
  n!"HSbO2|1:H 1:Sb 2:O|0.0",
  n!"SbO2-|1:Sb 2:O|-1.0",
  n!"Bi+3|1:Bi|3.0",
  n!"BiO+|1:Bi 1:O|1.0",
  n!"BiOH+2|1:Bi 1:O 1:H|2.0",
  n!"HBiO2|1:H 1:Bi 2:O|0.0",
  n!"BiO2-|1:Bi 2:O|-1.0",
  n!"H2O2|2:H 2:O|0.0",
  n!"HClO2|1:H 1:Cl 2:O|0.0",
  n!"HIO3|1:H 1:I 3:O|0.0",
  n!"V+2|1:V|2.0",
  n!"V+3|1:V|3.0",
  n!"VO4-3|1:V 4:O|-3.0",
  n!"Cr+2|1:Cr|2.0",
  n!"Cr+3|1:Cr|3.0",
  n!"CrOH+2|1:Cr 1:O 1:H|2.0",
  n!"CrO+|1:Cr 1:O|1.0",
  n!"HCrO2|1:H 1:Cr 2:O|0.0",
  n!"CrO2-|1:Cr 2:O|-1.0",
  n!"Zr+4|1:Zr|4.0",
  n!"Zr(OH)+3|1:Zr 1:O 1:H|3.0"]

/-- Compositions 900 to 999. -/
def good9 : List Nat := [
  n!"ZrO+2|1:Zr 1:O|2.0",
  n!"HZrO2+|1:Zr 2:O 1:H|1.0",
  n!"ZrO2|1:Zr 2:O|0.0",
  n!"HZrO3-|1:Zr 3:O 1:H|-1.0",
  n!"HNbO3|1:H 1:Nb 3:O|0.0",
  n!"NbO3-|1:Nb 3:O|-1.0",
  n!"TcO4-|1:Tc 4:O|-1.0",
  n!"Pm+2|1:Pm|2.0",
  n!"Pm+3|1:Pm|3.0",
  n!"Pm+4|1:Pm|4.0",
  n!"Hf+4|1:Hf|4.0",
  n!"HfOH+3|1:Hf 1:O 1:H|3.0",
  n!"HfO+2|1:Hf 1:O|2.0",
  n!"HHfO2+|1:H 1:Hf 2:O|1.0",
  n!"HfO2|1:Hf 2:O|0.0",
  n!"HHfO3-|1:H 1:Hf 3:O|-1.0",
  n!"La+2|1:La|2.0",
  n!"LaCO3+|1:La 1:C 3:O|1.0",
  n!"LaHCO3+2|1:La 1:H 1:C 3:O|2.0",
  n!"LaOH+2|1:La 1:O 1:H|2.0",
  n!"LaO+|1:La 1:O|1.0",
  n!"LaO2H|1:La 2:O 1:H|0.0",
  n!"LaO2-|1:La 2:O|-1.0",
  n!"LaCl+2|1:La 1:Cl|2.0",
  n!"LaCl2+|1:La 2:Cl|1.0",
  n!"LaCl3|1:La 3:Cl|0.0",
  n!"LaCl4-|1:La 4:Cl|-1.0",
  n!"LaNO3+2|1:La 1:N 3:O|2.0",
  n!"LaF+2|1:La 1:F|2.0",
  n!"LaF2+|1:La 2:F|1.0",
  n!"LaF3|1:La 3:F|0.0",
  n!"LaF4-|1:La 4:F|-1.0",
  n!"LaH2PO4+2|1:La 2:H 1:P 4:O|2.0",
  n!"LaSO4+|1:La 1:S 4:O|1.0",
  n!"CeCO3+|1:Ce 1:C 3:O|1.0",
  n!"CeHCO3+2|1:Ce 1:H 1:C 3:O|2.0",
  n!"CeOH+2|1:Ce 1:O 1:H|2.0",
  n!"CeO+|1:Ce 1:O|1.0",
  n!"CeO2H|1:Ce 2:O 1:H|0.0",
  n!"CeO2-|1:Ce 2:O|-1.0",
  n!"CeCl+2|1:Ce 1:Cl|2.0",
  n!"CeCl2+|1:Ce 2:Cl|1.0",
  n!"CeCl3|1:Ce 3:Cl|0.0",
  n!"CeCl4-|1:Ce 4:Cl|-1.0",
  n!"CeH2PO4+2|1:Ce 2:H 1:P 4:O|2.0",
  n!"CeNO3+2|1:Ce 1:N 3:O|2.0",
  n!"CeF+2|1:Ce 1:F|2.0",
  n!"CeF2+|1:Ce 2:F|1.0",
  n!"CeF3|1:Ce 3:F|0.0",
  n!"CeF4-|1:Ce 4:F|-1.0",
  n!"CeBr+2|1:Ce 1:Br|2.0",
  n!"CeIO3+2|1:Ce 1:I 3:O|2.0",
  n!"CeClO4+2|1:Ce 1:Cl 4:O|2.0",
  n!"CeSO4+|1:Ce 1:S 4:O|1.0",
  n!"PrCO3+|1:Pr 1:C 3:O|1.0",
  n!"PrHCO3+2|1:Pr 1:H 1:C 3:O|2.0",
  n!"PrCl+2|1:Pr 1:Cl|2.0",
  n!"PrCl2+|1:Pr 2:Cl|1.0",
  n!"PrCl3|1:Pr 3:Cl|0.0",
  n!"PrCl4-|1:Pr 4:Cl|-1.0",
  n!"PrH2PO4+2|1:Pr 2:H 1:P 4:O|2.0",
  n!"PrNO3+2|1:Pr 1:N 3:O|2.0",
  n!"PrF+2|1:Pr 1:F|2.0",
  n!"PrF2+|1:Pr 2:F|1.0",
  n!"PrF3|1:Pr 3:F|0.0",
  n!"PrF4-|1:Pr 4:F|-1.0",
  n!"PrOH+2|1:Pr 1:O 1:H|2.0",
  n!"PrO+|1:Pr 1:O|1.0",
  n!"PrO2H|1:Pr 2:O 1:H|0.0",
  n!"PrO2-|1:Pr 2:O|-1.0",
  n!"PrSO4+|1:Pr 1:S 4:O|1.0",
  n!"NdCO3+|1:Nd 1:C 3:O|1.0",
  n!"NdHCO3+2|1:Nd 1:H 1:C 3:O|2.0",
  n!"NdOH+2|1:Nd 1:O 1:H|2.0",
  n!"NdO+|1:Nd 1:O|1.0",
  n!"NdO2H|1:Nd 2:O 1:H|0.0",
  n!"NdO2-|1:Nd 2:O|-1.0",
  n!"NdCl+2|1:Nd 1:Cl|2.0",
  n!"NdCl2+|1:Nd 2:Cl|1.0",
  n!"NdCl3|1:Nd 3:Cl|0.0",
  n!"NdCl4-|1:Nd 4:Cl|-1.0",
  n!"NdH2PO4+2|1:Nd 2:H 1:P 4:O|2.0",
  n!"NdNO3+2|1:Nd 1:N 3:O|2.0",
  n!"NdF+2|1:Nd 1:F|2.0",
  n!"NdF2+|1:Nd 2:F|1.0",
  n!"NdF3|1:Nd 3:F|0.0",
  n!"NdF4-|1:Nd 4:F|-1.0",
  n!"NdSO4+|1:Nd 1:S 4:O|1.0",
  n!"SmCO3+|1:Sm 1:C 3:O|1.0",
  n!"SmOH+2|1:Sm 1:O 1:H|2.0",
  n!"SmO+|1:Sm 1:O|1.0",
  n!"SmO2H|1:Sm 2:O 1:H|0.0",
  n!"SmO2-|1:Sm 2:O|-1.0",
  n!"SmHCO3+2|1:Sm 1:H 1:C 3:O|2.0",
  n!"SmCl+2|1:Sm 1:Cl|2.0",
  n!"SmCl2+|1:Sm 2:Cl|1.0",
  n!"SmCl3|1:Sm 3:Cl|0.0",
  n!"SmCl4-|1:Sm 4:Cl|-1.0",
  n!"SmH2PO4+2|1:Sm 2:H 1:P 4:O|2.0",
  n!"SmNO3+2|1:Sm 1:N 3:O|2.0"]

/-- Compositions 1000 to 1099. -/
def good10 : List Nat := [
  n!"SmF+2|1:Sm 1:F|2.0",
  n!"SmF2+|1:Sm 2:F|1.0",
  n!"SmF3|1:Sm 3:F|0.0",
  n!"SmF4-|1:Sm 4:F|-1.0",
  n!"SmSO4+|1:Sm 1:S 4:O|1.0",
  n!"EuCO3+|1:Eu 1:C 3:O|1.0",
  n!"EuOH+2|1:Eu 1:O 1:H|2.0",
  n!"EuO+|1:Eu 1:O|1.0",
  n!"EuO2H|1:Eu 2:O 1:H|0.0",
  n!"EuO2-|1:Eu 2:O|-1.0",
  n!"EuHCO3+2|1:Eu 1:H 1:C 3:O|2.0",
  n!"EuCl+2|1:Eu 1:Cl|2.0",
  n!"EuCl2+|1:Eu 2:Cl|1.0",
  n!"EuCl3|1:Eu 3:Cl|0.0",
  n!"EuCl4-|1:Eu 4:Cl|-1.0",
  n!"EuF+|1:Eu 1:F|1.0",
  n!"EuF3-|1:Eu 3:F|-1.0",
  n!"EuF4-2|1:Eu 4:F|-2.0",
  n!"EuCl+|1:Eu 1:Cl|1.0",
  n!"EuCl2|1:Eu 2:Cl|0.0",
  n!"EuCl3-|1:Eu 3:Cl|-1.0",
  n!"EuCl4-2|1:Eu 4:Cl|-2.0",
  n!"EuH2PO4+2|1:Eu 2:H 1:P 4:O|2.0",
  n!"EuNO3+2|1:Eu 1:N 3:O|2.0",
  n!"EuF+2|1:Eu 1:F|2.0",
  n!"EuF2+|1:Eu 2:F|1.0",
  n!"EuF3|1:Eu 3:F|0.0",
  n!"EuF4-|1:Eu 4:F|-1.0",
  n!"EuSO4+|1:Eu 1:S 4:O|1.0",
  n!"GdCO3+|1:Gd 1:C 3:O|1.0",
  n!"GdOH+2|1:Gd 1:O 1:H|2.0",
  n!"GdO+|1:Gd 1:O|1.0",
  n!"GdO2H|1:Gd 2:O 1:H|0.0",
  n!"GdO2-|1:Gd 2:O|-1.0",
  n!"GdHCO3+2|1:Gd 1:H 1:C 3:O|2.0",
  n!"GdCl+2|1:Gd 1:Cl|2.0",
  n!"GdCl2+|1:Gd 2:Cl|1.0",
  n!"GdCl3|1:Gd 3:Cl|0.0",
  n!"GdCl4-|1:Gd 4:Cl|-1.0",
  n!"GdH2PO4+2|1:Gd 2:H 1:P 4:O|2.0",
  n!"GdNO3+2|1:Gd 1:N 3:O|2.0",
  n!"GdF+2|1:Gd 1:F|2.0",
  n!"GdF2+|1:Gd 2:F|1.0",
  n!"GdF3|1:Gd 3:F|0.0",
  n!"GdF4-|1:Gd 4:F|-1.0",
  n!"GdSO4+|1:Gd 1:S 4:O|1.0",
  n!"TbCO3+|1:Tb 1:C 3:O|1.0",
  n!"TbOH+2|1:Tb 1:O 1:H|2.0",
  n!"TbO+|1:Tb 1:O|1.0",
  n!"TbO2H|1:Tb 2:O 1:H|0.0",
  n!"TbO2-|1:Tb 2:O|-1.0",
  n!"TbHCO3+2|1:Tb 1:H 1:C 3:O|2.0",
  n!"TbCl+2|1:Tb 1:Cl|2.0",
  n!"TbCl2+|1:Tb 2:Cl|1.0",
  n!"TbCl3|1:Tb 3:Cl|0.0",
  n!"TbCl4-|1:Tb 4:Cl|-1.0",
  n!"TbH2PO4+2|1:Tb 2:H 1:P 4:O|2.0",
  n!"TbNO3+2|1:Tb 1:N 3:O|2.0",
  n!"TbF+2|1:Tb 1:F|2.0",
  n!"TbF2+|1:Tb 2:F|1.0",
  n!"TbF3|1:Tb 3:F|0.0",
  n!"TbF4-|1:Tb 4:F|-1.0",
  n!"TbSO4+|1:Tb 1:S 4:O|1.0",
  n!"DyCO3+|1:Dy 1:C 3:O|1.0",
  n!"DyHCO3+2|1:Dy 1:H 1:C 3:O|2.0",
  n!"DyCl+2|1:Dy 1:Cl|2.0",
  n!"DyCl2+|1:Dy 2:Cl|1.0",
  n!"DyCl3|1:Dy 3:Cl|0.0",
  n!"DyCl4-|1:Dy 4:Cl|-1.0",
  n!"DyH2PO4+2|1:Dy 2:H 1:P 4:O|2.0",
  n!"DyNO3+2|1:Dy 1:N 3:O|2.0",
  n!"DyF+2|1:Dy 1:F|2.0",
  n!"DyF2+|1:Dy 2:F|1.0",
  n!"DyF3|1:Dy 3:F|0.0",
  n!"DyF4-|1:Dy 4:F|-1.0",
  n!"DyOH+2|1:Dy 1:O 1:H|2.0",
  n!"DyO+|1:Dy 1:O|1.0",
  n!"DyO2H|1:Dy 2:O 1:H|0.0",
  n!"DyO2-|1:Dy 2:O|-1.0",
  n!"DySO4+|1:Dy 1:S 4:O|1.0",
  n!"HoCO3+|1:Ho 1:C 3:O|1.0",
  n!"HoHCO3+2|1:Ho 1:H 1:C 3:O|2.0",
  n!"HoCl+2|1:Ho 1:Cl|2.0",
  n!"HoCl2+|1:Ho 2:Cl|1.0",
  n!"HoCl3|1:Ho 3:Cl|0.0",
  n!"HoCl4-|1:Ho 4:Cl|-1.0",
  n!"HoH2PO4+2|1:Ho 2:H 1:P 4:O|2.0",
  n!"HoNO3+2|1:Ho 1:N 3:O|2.0",
  n!"HoF+2|1:Ho 1:F|2.0",
  n!"HoF2+|1:Ho 2:F|1.0",
  n!"HoF3|1:Ho 3:F|0.0",
  n!"HoF4-|1:Ho 4:F|-1.0",
  n!"HoOH+2|1:Ho 1:O 1:H|2.0",
  n!"HoO+|1:Ho 1:O|1.0",
  n!"HoO2H|1:Ho 2:O 1:H|0.0",
  n!"HoO2-|1:Ho 2:O|-1.0",
  n!"HoSO4+|1:Ho 1:S 4:O|1.0",
  n!"ErCO3+|1:Er 1:C 3:O|1.0",
  n!"ErHCO3+2|1:Er 1:H 1:C 3:O|2.0",
  n!"ErCl+2|1:Er 1:Cl|2.0"]

/-- Compositions 1100 to 1199. -/
def good11 : List Nat := [
  n!"ErCl2+|1:Er 2:Cl|1.0",
  n!"ErCl3|1:Er 3:Cl|0.0",
  n!"ErCl4-|1:Er 4:Cl|-1.0",
  n!"ErH2PO4+2|1:Er 2:H 1:P 4:O|2.0",
  n!"ErNO3+2|1:Er 1:N 3:O|2.0",
  n!"ErF+2|1:Er 1:F|2.0",
  n!"ErF2+|1:Er 2:F|1.0",
  n!"ErF3|1:Er 3:F|0.0",
  n!"ErF4-|1:Er 4:F|-1.0",
  n!"ErOH+2|1:Er 1:O 1:H|2.0",
  n!"ErO+|1:Er 1:O|1.0",
  n!"ErO2H|1:Er 2:O 1:H|0.0",
  n!"ErO2-|1:Er 2:O|-1.0",
  n!"ErSO4+|1:Er 1:S 4:O|1.0",
  n!"TmCO3+|1:Tm 1:C 3:O|1.0",
  n!"TmHCO3+2|1:Tm 1:H 1:C 3:O|2.0",
  n!"TmCl+2|1:Tm 1:Cl|2.0",
  n!"TmCl2+|1:Tm 2:Cl|1.0",
  n!"TmCl3|1:Tm 3:Cl|0.0",
  n!"TmCl4-|1:Tm 4:Cl|-1.0",
  n!"TmH2PO4+2|1:Tm 2:H 1:P 4:O|2.0",
  n!"TmNO3+2|1:Tm 1:N 3:O|2.0",
  n!"TmF+2|1:Tm 1:F|2.0",
  n!"TmF2+|1:Tm 2:F|1.0",
  n!"TmF3|1:Tm 3:F|0.0",
  n!"TmF4-|1:Tm 4:F|-1.0",
  n!"TmOH+2|1:Tm 1:O 1:H|2.0",
  n!"TmO+|1:Tm 1:O|1.0",
  n!"TmO2H|1:Tm 2:O 1:H|0.0",
  n!"TmO2-|1:Tm 2:O|-1.0",
  n!"TmSO4+|1:Tm 1:S 4:O|1.0",
  n!"YbCO3+|1:Yb 1:C 3:O|1.0",
  n!"YbOH+2|1:Yb 1:O 1:H|2.0",
  n!"YbO+|1:Yb 1:O|1.0",
  n!"YbO2H|1:Yb 2:O 1:H|0.0",
  n!"YbO2-|1:Yb 2:O|-1.0",
  n!"YbHCO3+2|1:Yb 1:H 1:C 3:O|2.0",
  n!"YbCl+2|1:Yb 1:Cl|2.0",
  n!"YbCl2+|1:Yb 2:Cl|1.0",
  n!"YbCl3|1:Yb 3:Cl|0.0",
  n!"YbCl4-|1:Yb 4:Cl|-1.0",
  n!"YbH2PO4+2|1:Yb 2:H 1:P 4:O|2.0",
  n!"YbNO3+2|1:Yb 1:N 3:O|2.0",
  n!"YbF+2|1:Yb 1:F|2.0",
  n!"YbF2+|1:Yb 2:F|1.0",
  n!"YbF3|1:Yb 3:F|0.0",
  n!"YbF4-|1:Yb 4:F|-1.0",
  n!"YbSO4+|1:Yb 1:S 4:O|1.0",
  n!"LuCO3+|1:Lu 1:C 3:O|1.0",
  n!"LuOH+2|1:Lu 1:O 1:H|2.0",
  n!"LuO+|1:Lu 1:O|1.0",
  n!"LuO2H|1:Lu 2:O 1:H|0.0",
  n!"LuO2-|1:Lu 2:O|-1.0",
  n!"LuHCO3+2|1:Lu 1:H 1:C 3:O|2.0",
  n!"LuCl+2|1:Lu 1:Cl|2.0",
  n!"LuCl2+|1:Lu 2:Cl|1.0",
  n!"LuCl3|1:Lu 3:Cl|0.0",
  n!"LuCl4-|1:Lu 4:Cl|-1.0",
  n!"LuNO3+2|1:Lu 1:N 3:O|2.0",
  n!"LuF+2|1:Lu 1:F|2.0",
  n!"LuF2+|1:Lu 2:F|1.0",
  n!"LuF3|1:Lu 3:F|0.0",
  n!"LuF4-|1:Lu 4:F|-1.0",
  n!"LuSO4+|1:Lu 1:S 4:O|1.0",
  n!"LiCH3CH2OCO2|1:Li 3:C 5:H 3:O|0.0",
  n!"MgCH3CH2OCO2+|1:Mg 3:C 5:H 3:O|1.0",
  n!"Mg(CH3CH2OCO2)2|1:Mg 6:C 10:H 6:O|0.0",
  n!"CaCH3CH2OCO2+|1:Ca 3:C 5:H 3:O|1.0",
  n!"Ca(CH3CH2OCO2)2|1:Ca 6:C 10:H 6:O|0.0",
  n!"SrCH3CH2OCO2+|1:Sr 3:C 5:H 3:O|1.0",
  n!"Sr(CH3CH2OCO2)2|1:Sr 6:C 10:H 6:O|0.0",
  n!"BaCH3CH2OCO2+|1:Ba 3:C 5:H 3:O|1.0",
  n!"Ba(CH3CH2OCO2)2|1:Ba 6:C 10:H 6:O|0.0",
  n!"MnCH3CH2OCO2+|1:Mn 3:C 5:H 3:O|1.0",
  n!"Mn(CH3CH2OCO2)2|1:Mn 6:C 10:H 6:O|0.0",
  n!"CoCH3CH2OCO2+|1:Co 3:C 5:H 3:O|1.0",
  n!"Co(CH3CH2OCO2)2|1:Co 6:C 10:H 6:O|0.0",
  n!"NiCH3CH2OCO2+|1:Ni 3:C 5:H 3:O|1.0",
  n!"Ni(CH3CH2OCO2)2|1:Ni 6:C 10:H 6:O|0.0",
  n!"CuCH3CH2OCO2+|1:Cu 3:C 5:H 3:O|1.0",
  n!"Cu(CH3CH2OCO2)2|1:Cu 6:C 10:H 6:O|0.0",
  n!"ZnCH3CH2OCO2+|1:Zn 3:C 5:H 3:O|1.0",
  n!"Zn(CH3CH2OCO2)2|1:Zn 6:C 10:H 6:O|0.0",
  n!"CdCH3CH2OCO2+|1:Cd 3:C 5:H 3:O|1.0",
  n!"Cd(CH3CH2OCO2)2|1:Cd 6:C 10:H 6:O|0.0",
  n!"LaCH3CH2OCO2+2|1:La 3:C 5:H 3:O|2.0",
  n!"LuCH3CH2OCO2+2|1:Lu 3:C 5:H 3:O|2.0",
  n!"NaCH3CH2OCO2|1:Na 3:C 5:H 3:O|0.0",
  n!"Na(CH3CH2OCO2)2-|1:Na 6:C 10:H 6:O|-1.0",
  n!"KCH3CH2OCO2|1:K 3:C 5:H 3:O|0.0",
  n!"K(CH3CH2OCO2)2-|1:K 6:C 10:H 6:O|-1.0",
  n!"PbCH3CH2OCO2+|1:Pb 3:C 5:H 3:O|1.0",
  n!"Pb(CH3CH2OCO2)2|1:Pb 6:C 10:H 6:O|0.0",
  n!"FeCH3CH2OCO2+|1:Fe 3:C 5:H 3:O|1.0",
  n!"Fe(CH3CH2OCO2)2|1:Fe 6:C 10:H 6:O|0.0",
  n!"Eu(CH3CH2OCO2)+|1:Eu 3:C 5:H 3:O|1.0",
  n!"Eu(CH3CH2OCO2)2|1:Eu 6:C 10:H 6:O|0.0",
  n!"LiCH3OCO2|1:Li 2:C 3:H 3:O|0.0",
  n!"MgCH3OCO2+|1:Mg 2:C 3:H 3:O|1.0",
  n!"Mg(CH3OCO2)2|1:Mg 4:C 6:H 6:O|0.0"]

/-- Compositions 1200 to 1299. -/
def good12 : List Nat := [
  n!"CaCH3OCO2+|1:Ca 2:C 3:H 3:O|1.0",
  n!"Ca(CH3OCO2)2|1:Ca 4:C 6:H 6:O|0.0",
  n!"SrCH3OCO2+|1:Sr 2:C 3:H 3:O|1.0",
  n!"Sr(CH3OCO2)2|1:Sr 4:C 6:H 6:O|0.0",
  n!"BaCH3OCO2+|1:Ba 2:C 3:H 3:O|1.0",
  n!"Ba(CH3OCO2)2|1:Ba 4:C 6:H 6:O|0.0",
  n!"MnCH3OCO2+|1:Mn 2:C 3:H 3:O|1.0",
  n!"Mn(CH3OCO2)2|1:Mn 4:C 6:H 6:O|0.0",
  n!"CoCH3OCO2+|1:Co 2:C 3:H 3:O|1.0",
  n!"Co(CH3OCO2)2|1:Co 4:C 6:H 6:O|0.0",
  n!"NiCH3OCO2+|1:Ni 2:C 3:H 3:O|1.0",
  n!"Ni(CH3OCO2)2|1:Ni 4:C 6:H 6:O|0.0",
  n!"CuCH3OCO2+|1:Cu 2:C 3:H 3:O|1.0",
  n!"Cu(CH3OCO2)2|1:Cu 4:C 6:H 6:O|0.0",
  n!"ZnCH3OCO2+|1:Zn 2:C 3:H 3:O|1.0",
  n!"Zn(CH3OCO2)2|1:Zn 4:C 6:H 6:O|0.0",
  n!"CdCH3OCO2+|1:Cd 2:C 3:H 3:O|1.0",
  n!"Cd(CH3OCO2)2|1:Cd 4:C 6:H 6:O|0.0",
  n!"EuCH3OCO2+|1:Eu 2:C 3:H 3:O|1.0",
  n!"Eu(CH3OCO2)2|1:Eu 4:C 6:H 6:O|0.0",
  n!"Na(CH3OCO2)|1:Na 2:C 3:H 3:O|0.0",
  n!"Na(CH3OCO2)2-|1:Na 4:C 6:H 6:O|-1.0",
  n!"KCH3OCO2|1:K 2:C 3:H 3:O|0.0",
  n!"K(CH3OCO2)2-|1:K 4:C 6:H 6:O|-1.0",
  n!"PbCH3OCO2+|1:Pb 2:C 3:H 3:O|1.0",
  n!"Pb(CH3OCO2)2|1:Pb 4:C 6:H 6:O|0.0",
  n!"FeCH3OCO2+|1:Fe 2:C 3:H 3:O|1.0",
  n!"Fe(CH3OCO2)2|1:Fe 4:C 6:H 6:O|0.0",
  n!"Cd(C3H6NO2)+|1:Cd 3:C 6:H 2:O 1:N|1.0",
  n!"Cd(C3H6NO2)2|1:Cd 6:C 12:H 2:N 4:O|0.0",
  n!"Ca(C3H6NO2)+|1:Ca 3:C 6:H 2:O 1:N|1.0",
  n!"Ca(C3H6NO2)2|1:Ca 6:C 12:H 2:N 4:O|0.0",
  n!"Pb(C3H6NO2)+|1:Pb 3:C 6:H 2:O 1:N|1.0",
  n!"Pb(C3H6NO2)2|1:Pb 6:C 12:H 2:N 4:O|0.0",
  n!"Mg(C3H6NO2)+|1:Mg 3:C 6:H 1:N 2:O|1.0",
  n!"Mg(C3H6NO2)2|1:Mg 6:C 12:H 2:N 4:O|0.0",
  n!"Sr(C3H6NO2)+|1:Sr 3:C 6:H 1:N 2:O|1.0",
  n!"Sr(C3H6NO2)2|1:Sr 6:C 12:H 2:N 4:O|0.0",
  n!"Mn(C3H6NO2)+|1:Mn 3:C 6:H 1:N 2:O|1.0",
  n!"Mn(C3H6NO2)2|1:Mn 6:C 12:H 2:N 4:O|0.0",
  n!"Co(C3H6NO2)+|1:Co 3:C 6:H 1:N 2:O|1.0",
  n!"Co(C3H6NO2)2|1:Co 6:C 12:H 2:N 4:O|0.0",
  n!"Ni(C3H6NO2)+|1:Ni 3:C 6:H 1:N 2:O|1.0",
  n!"Ni(C3H6NO2)2|1:Ni 6:C 12:H 2:N 4:O|0.0",
  n!"Cu(C3H6NO2)+|1:Cu 3:C 6:H 1:N 2:O|1.0",
  n!"Cu(C3H6NO2)2|1:Cu 6:C 12:H 2:N 4:O|0.0",
  n!"Zn(C3H6NO2)+|1:Zn 3:C 6:H 1:N 2:O|1.0",
  n!"Zn(C3H6NO3)2|1:Zn 6:C 12:H 2:N 6:O|0.0",
  n!"Ba(C3H6NO2)+|1:Ba 3:C 6:H 1:N 2:O|1.0",
  n!"Ba(C3H6NO2)2|1:Ba 6:C 12:H 2:N 4:O|0.0",
  n!"Fe(C3H6NO2)+|1:Fe 3:C 6:H 1:N 2:O|1.0",
  n!"Fe(C3H6NO2)2|1:Fe 6:C 12:H 2:N 4:O|0.0",
  n!"Eu(C3H6NO2)+|1:Eu 3:C 6:H 1:N 2:O|1.0",
  n!"Eu(C3H6NO2)2|1:Eu 6:C 12:H 2:N 4:O|0.0",
  n!"Cd(C2H4NO2)+|1:Cd 2:C 4:H 2:O 1:N|1.0",
  n!"Cd(C2H4NO2)2|1:Cd 4:C 8:H 2:N 4:O|0.0",
  n!"Ca(C2H4NO2)+|1:Ca 2:C 4:H 2:O 1:N|1.0",
  n!"Ca(C2H4NO2)2|1:Ca 4:C 8:H 2:N 4:O|0.0",
  n!"Sr(C2H4NO2)+|1:Sr 2:C 4:H 1:N 2:O|1.0",
  n!"Sr(C2H4NO2)2|1:Sr 4:C 8:H 2:N 4:O|0.0",
  n!"Mn(C2H4NO2)+|1:Mn 2:C 4:H 1:N 2:O|1.0",
  n!"Mn(C2H4NO2)2|1:Mn 4:C 8:H 2:N 4:O|0.0",
  n!"Fe(C2H4NO2)+|1:Fe 2:C 4:H 1:N 2:O|1.0",
  n!"Fe(C2H4NO2)2|1:Fe 4:C 8:H 2:N 4:O|0.0",
  n!"Co(C2H4NO2)+|1:Co 2:C 4:H 1:N 2:O|1.0",
  n!"Co(C2H4NO2)2|1:Co 4:C 8:H 2:N 4:O|0.0",
  n!"Pb(C2H4NO2)+|1:Pb 2:C 4:H 2:O 1:N|1.0",
  n!"Pb(C2H4NO2)2|1:Pb 4:C 8:H 2:N 4:O|0.0",
  n!"Mg(C2H4NO2)+|1:Mg 2:C 4:H 1:N 2:O|1.0",
  n!"Mg(C2H4NO2)2|1:Mg 4:C 8:H 2:N 4:O|0.0",
  n!"Ni(C2H4NO2)+|1:Ni 2:C 4:H 1:N 2:O|1.0",
  n!"Ni(C2H4NO2)2|1:Ni 4:C 8:H 2:N 4:O|0.0",
  n!"Cu(C2H4NO2)+|1:Cu 2:C 4:H 1:N 2:O|1.0",
  n!"Cu(C2H4NO2)2|1:Cu 4:C 8:H 2:N 4:O|0.0",
  n!"Zn(C2H4NO2)+|1:Zn 2:C 4:H 1:N 2:O|1.0",
  n!"Eu(C2H4NO2)+|1:Eu 2:C 4:H 1:N 2:O|1.0",
  n!"Eu(C2H4NO2)2|1:Eu 4:C 8:H 2:N 4:O|0.0",
  n!"Ba(C2H4NO2)+|1:Ba 2:C 4:H 1:N 2:O|1.0",
  n!"Ba(C2H4NO2)2|1:Ba 4:C 8:H 2:N 4:O|0.0",
  n!"MgCHO2+|1:Mg 1:C 1:H 2:O|1.0",
  n!"Mg(CHO2)2|1:Mg 2:C 2:H 4:O|0.0",
  n!"CaCHO2+|1:Ca 1:C 1:H 2:O|1.0",
  n!"Ca(CHO2)2|1:Ca 2:C 2:H 4:O|0.0",
  n!"SrCHO2+|1:Sr 1:C 1:H 2:O|1.0",
  n!"Sr(CHO2)2|1:Sr 2:C 2:H 4:O|0.0",
  n!"BaCHO2+|1:Ba 1:C 1:H 2:O|1.0",
  n!"Ba(CHO2)2|1:Ba 2:C 2:H 4:O|0.0",
  n!"CuCHO2+|1:Cu 1:C 1:H 2:O|1.0",
  n!"Cu(CHO2)2|1:Cu 2:C 2:H 4:O|0.0",
  n!"CdCHO2+|1:Cd 1:C 1:H 2:O|1.0",
  n!"Cd(CHO2)2|1:Cd 2:C 2:H 4:O|0.0",
  n!"NaCHO2|1:Na 1:C 1:H 2:O|0.0",
  n!"KCHO2|1:K 1:C 1:H 2:O|0.0",
  n!"K(CHO2)2-|1:K 2:C 2:H 4:O|-1.0",
  n!"LaCHO2+2|1:La 1:C 1:H 2:O|2.0",
  n!"La(CHO2)2+|1:La 2:C 2:H 4:O|1.0",
  n!"EuCHO2+|1:Eu 1:C 1:H 2:O|1.0",
  n!"Eu(CHO2)2|1:Eu 2:C 2:H 4:O|0.0",
  n!"UCHO2+2|1:U 1:C 1:H 2:O|2.0",
  n!"U(CHO2)2+|1:U 2:C 2:H 4:O|1.0"]

/-- Compositions 1300 to 1399. -/
def good13 : List Nat := [
  n!"EuCHO2+2|1:Eu 1:C 1:H 2:O|2.0",
  n!"Eu(CHO2)2+|1:Eu 2:C 2:H 4:O|1.0",
  n!"GdCHO2+2|1:Gd 1:C 1:H 2:O|2.0",
  n!"Gd(CHO2)2+|1:Gd 2:C 2:H 4:O|1.0",
  n!"YbCHO2+2|1:Yb 1:C 1:H 2:O|2.0",
  n!"Yb(CHO2)2+|1:Yb 2:C 2:H 4:O|1.0",
  n!"PbCHO2+|1:Pb 1:C 1:H 2:O|1.0",
  n!"Pb(CHO2)2|1:Pb 2:C 2:H 4:O|0.0",
  n!"MnCHO2+|1:Mn 1:C 1:H 2:O|1.0",
  n!"Mn(CHO2)2|1:Mn 2:C 2:H 4:O|0.0",
  n!"CoCHO2+|1:Co 1:C 1:H 2:O|1.0",
  n!"Co(CHO2)2|1:Co 2:C 2:H 4:O|0.0",
  n!"NiCHO2+|1:Ni 1:C 1:H 2:O|1.0",
  n!"Ni(CHO2)2|1:Ni 2:C 2:H 4:O|0.0",
  n!"ZnCHO2+|1:Zn 1:C 1:H 2:O|1.0",
  n!"Zn(CHO2)2|1:Zn 2:C 2:H 4:O|0.0",
  n!"FeCHO2+|1:Fe 1:C 1:H 2:O|1.0",
  n!"Fe(CHO2)2|1:Fe 2:C 2:H 4:O|0.0",
  n!"MgCH3CH2CO2+|1:Mg 3:C 5:H 2:O|1.0",
  n!"Mg(CH3CH2CO2)2|1:Mg 6:C 10:H 4:O|0.0",
  n!"CaCH3CH2CO2+|1:Ca 3:C 5:H 2:O|1.0",
  n!"Ca(CH3CH2CO2)2|1:Ca 6:C 10:H 4:O|0.0",
  n!"SrCH3CH2CO2+|1:Sr 3:C 5:H 2:O|1.0",
  n!"Sr(CH3CH2CO2)2|1:Sr 6:C 10:H 4:O|0.0",
  n!"BaCH3CH2CO2+|1:Ba 3:C 5:H 2:O|1.0",
  n!"Ba(CH3CH2CO2)2|1:Ba 6:C 10:H 4:O|0.0",
  n!"EuCH3CH2CO2+|1:Eu 3:C 5:H 2:O|1.0",
  n!"Eu(CH3CH2CO2)2|1:Eu 6:C 10:H 4:O|0.0",
  n!"CuCH3CH2CO2+|1:Cu 3:C 5:H 2:O|1.0",
  n!"Cu(CH3CH2CO2)2|1:Cu 6:C 10:H 4:O|0.0",
  n!"CdCH3CH2CO2+|1:Cd 3:C 5:H 2:O|1.0",
  n!"Cd(CH3CH2CO2)2|1:Cd 6:C 10:H 4:O|0.0",
  n!"PbCH3CH2CO2+|1:Pb 3:C 5:H 2:O|1.0",
  n!"Pb(CH3CH2CO2)2|1:Pb 6:C 10:H 4:O|0.0",
  n!"NaCH3CH2CO2|1:Na 3:C 5:H 2:O|0.0",
  n!"Na(CH3CH2CO2)2-|1:Na 6:C 10:H 4:O|-1.0",
  n!"KCH3CH2CO2|1:K 3:C 5:H 2:O|0.0",
  n!"K(CH3CH2CO2)2-|1:K 6:C 10:H 4:O|-1.0",
  n!"LaCH3CH2CO2+2|1:La 3:C 5:H 2:O|2.0",
  n!"La(CH3CH2CO2)2+|1:La 6:C 10:H 4:O|1.0",
  n!"EuCH3CH2CO2+2|1:Eu 3:C 5:H 2:O|2.0",
  n!"Eu(CH3CH2CO2)2+|1:Eu 6:C 10:H 4:O|1.0",
  n!"GdCH3CH2CO2+2|1:Gd 3:C 5:H 2:O|2.0",
  n!"Gd(CH3CH2CO2)2+|1:Gd 6:C 10:H 4:O|1.0",
  n!"YbCH3CH2CO2+2|1:Yb 3:C 5:H 2:O|2.0",
  n!"Yb(CH3CH2CO2)2+|1:Yb 6:C 10:H 4:O|1.0",
  n!"UCH3CH2CO2+2|1:U 3:C 5:H 2:O|2.0",
  n!"U(CH3CH2CO2)2+|1:U 6:C 10:H 4:O|1.0",
  n!"CoCH3CH2CO2+|1:Co 3:C 5:H 2:O|1.0",
  n!"Co(CH3CH2CO2)2|1:Co 6:C 10:H 4:O|0.0",
  n!"NiCH3CH2CO2+|1:Ni 3:C 5:H 2:O|1.0",
  n!"Ni(CH3CH2CO2)2|1:Ni 6:C 10:H 4:O|0.0",
  n!"ZnCH3CH2CO2+|1:Zn 3:C 5:H 2:O|1.0",
  n!"Zn(CH3CH2CO2)2|1:Zn 6:C 10:H 4:O|0.0",
  n!"FeCH3CH2CO2+|1:Fe 3:C 5:H 2:O|1.0",
  n!"Fe(CH3CH2CO2)2|1:Fe 6:C 10:H 4:O|0.0",
  n!"MnCH3CH2CO2+|1:Mn 3:C 5:H 2:O|1.0",
  n!"Mn(CH3CH2CO2)2|1:Mn 6:C 10:H 4:O|0.0",
  n!"UCH3(CH2)2CO2+2|1:U 4:C 7:H 2:O|2.0",
  n!"U(CH3CH2CH2CO2)2+|1:U 8:C 14:H 4:O|1.0",
  n!"EuCH3(CH2)2CO2+|1:Eu 4:C 7:H 2:O|1.0",
  n!"Eu(CH3CH2CH2CO2)2|1:Eu 8:C 14:H 4:O|0.0",
  n!"MgCH3(CH2)2CO2+|1:Mg 4:C 7:H 2:O|1.0",
  n!"Mg(CH3CH2CH2CO2)2|1:Mg 8:C 14:H 4:O|0.0",
  n!"CaCH3(CH2)2CO2+|1:Ca 4:C 7:H 2:O|1.0",
  n!"Ca(CH3CH2CH2CO2)2|1:Ca 8:C 14:H 4:O|0.0",
  n!"SrCH3(CH2)2CO2+|1:Sr 4:C 7:H 2:O|1.0",
  n!"BaCH3(CH2)2CO2+|1:Ba 4:C 7:H 2:O|1.0",
  n!"Ba(CH3CH2CH2CO2)2|1:Ba 8:C 14:H 4:O|0.0",
  n!"CuCH3(CH2)2CO2+|1:Cu 4:C 7:H 2:O|1.0",
  n!"Cu(CH3CH2CH2CO2)2|1:Cu 8:C 14:H 4:O|0.0",
  n!"CdCH3(CH2)2CO2+|1:Cd 4:C 7:H 2:O|1.0",
  n!"Cd(CH3CH2CH2CO2)2|1:Cd 8:C 14:H 4:O|0.0",
  n!"NaCH3(CH2)2CO2|1:Na 4:C 7:H 2:O|0.0",
  n!"Na(CH3CH2CH2CO2)2-|1:Na 8:C 14:H 4:O|-1.0",
  n!"KCH3(CH2)2CO2|1:K 4:C 7:H 2:O|0.0",
  n!"K(CH3CH2CH2CO2)2-|1:K 8:C 14:H 4:O|-1.0",
  n!"LaCH3(CH2)2CO2+2|1:La 4:C 7:H 2:O|2.0",
  n!"La(CH3CH2CH2CO2)2+|1:La 8:C 14:H 4:O|1.0",
  n!"EuCH3(CH2)2CO2+2|1:Eu 4:C 7:H 2:O|2.0",
  n!"Eu(CH3CH2CH2CO2)2+|1:Eu 8:C 14:H 4:O|1.0",
  n!"GdCH3(CH2)2CO2+2|1:Gd 4:C 7:H 2:O|2.0",
  n!"Gd(CH3CH2CH2CO2)2+|1:Gd 8:C 14:H 4:O|1.0",
  n!"YbCH3(CH2)2CO2+2|1:Yb 4:C 7:H 2:O|2.0",
  n!"Yb(CH3CH2CH2CO2)2+|1:Yb 8:C 14:H 4:O|1.0",
  n!"PbCH3(CH2)2CO2+|1:Pb 4:C 7:H 2:O|1.0",
  n!"Pb(CH3CH2CH2CO2)2|1:Pb 8:C 14:H 4:O|0.0",
  n!"MnCH3(CH2)2CO2+|1:Mn 4:C 7:H 2:O|1.0",
  n!"Mn(CH3CH2CH2CO2)2|1:Mn 8:C 14:H 4:O|0.0",
  n!"NiCH3(CH2)2CO2+|1:Ni 4:C 7:H 2:O|1.0",
  n!"Ni(CH3CH2CH2CO2)2|1:Ni 8:C 14:H 4:O|0.0",
  n!"ZnCH3(CH2)2CO2+|1:Zn 4:C 7:H 2:O|1.0",
  n!"Zn(CH3CH2CH2CO2)2|1:Zn 8:C 14:H 4:O|0.0",
  n!"FeCH3(CH2)2CO2+|1:Fe 4:C 7:H 2:O|1.0",
  n!"Fe(CH3CH2CH2CO2)2|1:Fe 8:C 14:H 4:O|0.0",
  n!"CoCH3(CH2)2CO2+|1:Co 4:C 7:H 2:O|1.0",
  n!"Co(CH3CH2CH2CO2)2|1:Co 8:C 14:H 4:O|0.0",
  n!"CaCH3(CH2)3CO2+|1:Ca 5:C 9:H 2:O|1.0",
  n!"Ca(CH3CH2CH2CH2CO2)2|1:Ca 10:C 18:H 4:O|0.0",
  n!"SrCH3(CH2)3CO2+|1:Sr 5:C 9:H 2:O|1.0"]

/-- Compositions 1400 to 1499. -/
def good14 : List Nat := [
  n!"Sr(CH3CH2CH2CH2CO2)2|1:Sr 10:C 18:H 4:O|0.0",
  n!"BaCH3(CH2)3CO2+|1:Ba 5:C 9:H 2:O|1.0",
  n!"Ba(CH3CH2CH2CH2CO2)2|1:Ba 10:C 18:H 4:O|0.0",
  n!"CuCH3(CH2)3CO2+|1:Cu 5:C 9:H 2:O|1.0",
  n!"Cu(CH3CH2CH2CH2CO2)2|1:Cu 10:C 18:H 4:O|0.0",
  n!"NaCH3(CH2)3CO2|1:Na 5:C 9:H 2:O|0.0",
  n!"Na(CH3CH2CH2CH2CO2)2-|1:Na 10:C 18:H 4:O|-1.0",
  n!"KCH3(CH2)3CO2|1:K 5:C 9:H 2:O|0.0",
  n!"K(CH3CH2CH2CH2CO2)2-|1:K 10:C 18:H 4:O|-1.0",
  n!"LaCH3(CH2)3CO2+2|1:La 5:C 9:H 2:O|2.0",
  n!"La(CH3CH2CH2CH2CO2)2+|1:La 10:C 18:H 4:O|1.0",
  n!"EuCH3(CH2)3CO2+2|1:Eu 5:C 9:H 2:O|2.0",
  n!"Eu(CH3CH2CH2CH2CO2)2+|1:Eu 10:C 18:H 4:O|1.0",
  n!"UCH3(CH2)3CO2+2|1:U 5:C 9:H 2:O|2.0",
  n!"EuCH3(CH2)3CO2+|1:Eu 5:C 9:H 2:O|1.0",
  n!"GdCH3(CH2)3CO2+2|1:Gd 5:C 9:H 2:O|2.0",
  n!"Gd(CH3CH2CH2CH2CO2)2+|1:Gd 10:C 18:H 4:O|1.0",
  n!"YbCH3(CH2)3CO2+2|1:Yb 5:C 9:H 2:O|2.0",
  n!"Yb(CH3CH2CH2CH2CO2)2+|1:Yb 10:C 18:H 4:O|1.0",
  n!"MgCH3(CH2)3CO2+|1:Mg 5:C 9:H 2:O|1.0",
  n!"Mg(CH3CH2CH2CH2CO2)2|1:Mg 10:C 18:H 4:O|0.0",
  n!"PbCH3(CH2)3CO2+|1:Pb 5:C 9:H 2:O|1.0",
  n!"Pb(CH3CH2CH2CH2CO2)2|1:Pb 10:C 18:H 4:O|0.0",
  n!"CoCH3(CH2)3CO2+|1:Co 5:C 9:H 2:O|1.0",
  n!"Co(CH3CH2CH2CH2CO2)2|1:Co 10:C 18:H 4:O|0.0",
  n!"NiCH3(CH2)3CO2+|1:Ni 5:C 9:H 2:O|1.0",
  n!"Ni(CH3CH2CH2CH2CO2)2|1:Ni 10:C 18:H 4:O|0.0",
  n!"ZnCH3(CH2)3CO2+|1:Zn 5:C 9:H 2:O|1.0",
  n!"Zn(CH3CH2CH2CH2CO2)2|1:Zn 10:C 18:H 4:O|0.0",
  n!"CdCH3(CH2)3CO2+|1:Cd 5:C 9:H 2:O|1.0",
  n!"Cd(CH3CH2CH2CH2CO2)2|1:Cd 10:C 18:H 4:O|0.0",
  n!"FeCH3(CH2)3CO2+|1:Fe 5:C 9:H 2:O|1.0",
  n!"Fe(CH3CH2CH2CH2CO2)2|1:Fe 10:C 18:H 4:O|0.0",
  n!"MnCH3(CH2)3CO2+|1:Mn 5:C 9:H 2:O|1.0",
  n!"Mn(CH3CH2CH2CH2CO2)2|1:Mn 10:C 18:H 4:O|0.0",
  n!"NaSO4-|1:Na 1:S 4:O|-1.0",
  n!"MgSO4|1:Mg 1:S 4:O|0.0",
  n!"HCl|1:H 1:Cl|0.0",
  n!"MgCO3|1:Mg 1:C 3:O|0.0",
  n!"CaCO3|1:Ca 1:C 3:O|0.0",
  n!"SrCO3|1:Sr 1:C 3:O|0.0",
  n!"BaCO3|1:Ba 1:C 3:O|0.0",
  n!"BeCl+|1:Be 1:Cl|1.0",
  n!"BeCl2|1:Be 2:Cl|0.0",
  n!"FeCl+2|1:Fe 1:Cl|2.0",
  n!"CoCl+|1:Co 1:Cl|1.0",
  n!"CuCl|1:Cu 1:Cl|0.0",
  n!"CuCl2-|1:Cu 2:Cl|-1.0",
  n!"CuCl3-2|1:Cu 3:Cl|-2.0",
  n!"CuCl+|1:Cu 1:Cl|1.0",
  n!"CuCl2|1:Cu 2:Cl|0.0",
  n!"CuCl3-|1:Cu 3:Cl|-1.0",
  n!"CuCl4-2|1:Cu 4:Cl|-2.0",
  n!"CdCl+|1:Cd 1:Cl|1.0",
  n!"CdCl2|1:Cd 2:Cl|0.0",
  n!"CdCl3-|1:Cd 3:Cl|-1.0",
  n!"CdCl4-2|1:Cd 4:Cl|-2.0",
  n!"TlCl|1:Tl 1:Cl|0.0",
  n!"TlCl+2|1:Tl 1:Cl|2.0",
  n!"AuCl|1:Au 1:Cl|0.0",
  n!"AuCl2-|1:Au 2:Cl|-1.0",
  n!"AuCl3-2|1:Au 3:Cl|-2.0",
  n!"AuCl4-|1:Au 4:Cl|-1.0",
  n!"HgCl+|1:Hg 1:Cl|1.0",
  n!"HgCl2|1:Hg 2:Cl|0.0",
  n!"HgCl3-|1:Hg 3:Cl|-1.0",
  n!"HgCl4-2|1:Hg 4:Cl|-2.0",
  n!"InCl+2|1:In 1:Cl|2.0",
  n!"BeF+|1:Be 1:F|1.0",
  n!"BeF2|1:Be 2:F|0.0",
  n!"BeF3-|1:Be 3:F|-1.0",
  n!"BeF4-2|1:Be 4:F|-2.0",
  n!"MnF+|1:Mn 1:F|1.0",
  n!"FeF+|1:Fe 1:F|1.0",
  n!"FeF+2|1:Fe 1:F|2.0",
  n!"CoF+|1:Co 1:F|1.0",
  n!"NiF+|1:Ni 1:F|1.0",
  n!"CuF+|1:Cu 1:F|1.0",
  n!"ZnF+|1:Zn 1:F|1.0",
  n!"AgF|1:Ag 1:F|0.0",
  n!"CdF+|1:Cd 1:F|1.0",
  n!"CdF2|1:Cd 2:F|0.0",
  n!"BaF+|1:Ba 1:F|1.0",
  n!"TlF|1:Tl 1:F|0.0",
  n!"HgF+|1:Hg 1:F|1.0",
  n!"InF+2|1:In 1:F|2.0",
  n!"PbF+|1:Pb 1:F|1.0",
  n!"PbF2|1:Pb 2:F|0.0",
  n!"Ag(HS)2-|1:Ag 2:H 2:S|-1.0",
  n!"Au(HS)2-|1:Au 2:H 2:S|-1.0",
  n!"Pb(HS)2|1:Pb 2:H 2:S|0.0",
  n!"Pb(HS)3-|1:Pb 3:H 3:S|-1.0",
  n!"Mg(HSiO3)+|1:Mg 1:H 1:Si 3:O|1.0",
  n!"Ca(HSiO3)+|1:Ca 1:H 1:Si 3:O|1.0",
  n!"FeOOH|1:Fe 2:O 1:H|",
  n!"MoS2|1:Mo 2:S|",
  n!"Se|1:Se|",
  n!"Fe|1:Fe|",
  n!"NO|1:N 1:O|",
  n!"N2O|2:N 1:O|"]

/-- Compositions 1500 to 1599. -/
def good15 : List Nat := [
  n!"Ar|1:Ar|0.0",
  n!"C6H14N4O2|6:C 14:H 2:O 4:N|0.0",
  n!"C6H15N4O2+|6:C 15:H 2:O 4:N|1.0",
  n!"C6H13N4O2-|6:C 13:H 2:O 4:N|-1.0",
  n!"Am+3|1:Am|3.0",
  n!"AmOH+2|1:Am 1:O 1:H|2.0",
  n!"AmO+|1:Am 1:O|1.0",
  n!"HAmO2|1:Am 2:O 1:H|0.0",
  n!"AmF+2|1:Am 1:F|2.0",
  n!"AmF2+|1:Am 2:F|1.0",
  n!"AmF3|1:Am 3:F|0.0",
  n!"AmF4-|1:Am 4:F|-1.0",
  n!"AmCl+2|1:Am 1:Cl|2.0",
  n!"AmCl2+|1:Am 2:Cl|1.0",
  n!"AmCl3|1:Am 3:Cl|0.0",
  n!"AmCl4-|1:Am 4:Cl|-1.0",
  n!"AmNO3+2|1:Am 1:N 3:O|2.0",
  n!"Am(NO3)2+|1:Am 2:N 6:O|1.0",
  n!"AmNO2+2|1:Am 1:N 2:O|2.0",
  n!"AmH2PO4+2|1:Am 2:H 1:P 4:O|2.0",
  n!"AmSCN+2|1:Am 1:S 1:C 1:N|2.0",
  n!"Am(SCN)2+|1:Am 2:S 2:C 2:N|1.0",
  n!"Am(SCN)3|1:Am 3:S 3:C 3:N|0.0",
  n!"Am(HCO3)+2|1:Am 1:H 1:C 3:O|2.0",
  n!"Am(ClO4)+2|1:Am 1:Cl 4:O|2.0",
  n!"AmCO3+|1:Am 1:C 3:O|1.0",
  n!"Am(CO3)2-|1:Am 2:C 6:O|-1.0",
  n!"AmSO4+|1:Am 1:S 4:O|1.0",
  n!"Am(SO4)2-|1:Am 2:S 8:O|-1.0",
  n!"AmCH3COO+2|1:Am 2:C 3:H 2:O|2.0",
  n!"Am(CH3COO)2+|1:Am 4:C 6:H 4:O|1.0",
  n!"Am(CH3COO)3|1:Am 6:C 9:H 6:O|0.0",
  n!"AmCH3CH2OCO2+2|1:Am 3:C 5:H 3:O|2.0",
  n!"Am(CH3CH2OCO2)2+|1:Am 6:C 10:H 6:O|1.0",
  n!"AmCHO2+2|1:Am 1:C 1:H 2:O|2.0",
  n!"Am(CHO2)2+|1:Am 2:C 2:H 4:O|1.0",
  n!"AmCH3CH2CO2+2|1:Am 3:C 5:H 2:O|2.0",
  n!"Am(CH3CH2CO2)2+|1:Am 6:C 10:H 4:O|1.0",
  n!"AmCH3(CH2)2CO2+2|1:Am 4:C 7:H 2:O|2.0",
  n!"Am(CH3(CH2)2CO2)2+|1:Am 8:C 14:H 4:O|1.0",
  n!"AmCH3OCO2+2|1:Am 2:C 3:H 3:O|2.0",
  n!"Am(CH3OCO2)2+|1:Am 4:C 6:H 6:O|1.0",
  n!"C3H7NO2S|3:C 7:H 2:O 1:N 1:S|0.0",
  n!"C3H6NO2S-|3:C 6:H 2:O 1:N 1:S|-1.0",
  n!"C5H8NO4-|5:C 8:H 4:O 1:N|-1.0",
  n!"C2H6NO2+|2:C 6:H 2:O 1:N|1.0",
  n!"C4H5O4-|4:C 5:H 4:O|-1.0",
  n!"C7H13O2-|7:C 13:H 2:O|-1.0",
  n!"C6H9N3O2|6:C 9:H 2:O 3:N|0.0",
  n!"C6H10N3O2+|6:C 10:H 2:O 3:N|1.0",
  n!"H2SeO3|2:H 1:Se 3:O|0.0",
  n!"C6H14N2O2|6:C 14:H 2:O 2:N|0.0",
  n!"C6H15N2O2+|6:C 15:H 2:O 2:N|1.0",
  n!"C6H13N2O2-|6:C 13:H 2:O 2:N|-1.0",
  n!"C5H9NO2|5:C 9:H 2:O 1:N|0.0",
  n!"C9H10NO3-|9:C 10:H 3:O 1:N|-1.0",
  n!"UO2-|1:U 2:O|-1.0",
  n!"Na(CHO2)2-|1:Na 2:C 2:H 4:O|-1.0",
  n!"C2Cl4|2:C 4:Cl|0.0",
  n!"C2HCl3|2:C 1:H 3:Cl|0.0",
  n!"C2H2Cl2|2:C 2:H 2:Cl|0.0",
  n!"C2H3Cl|2:C 3:H 1:Cl|0.0",
  n!"PbC2O4|1:Pb 2:C 4:O|0.0",
  n!"MnC2O4|1:Mn 2:C 4:O|0.0",
  n!"CoC2O4|1:Co 2:C 4:O|0.0",
  n!"NiC2O4|1:Ni 2:C 4:O|0.0",
  n!"FeC2O4+|1:Fe 2:C 4:O|1.0",
  n!"CuC2O4|1:Cu 2:C 4:O|0.0",
  n!"NaC2O4-|1:Na 2:C 4:O|-1.0",
  n!"KC2O4-|1:K 2:C 4:O|-1.0",
  n!"NH4C2O4-|1:N 4:H 2:C 4:O|-1.0",
  n!"MgC2O4|1:Mg 2:C 4:O|0.0",
  n!"CaC2O4|1:Ca 2:C 4:O|0.0",
  n!"ZnC2O4|1:Zn 2:C 4:O|0.0",
  n!"CdC2O4|1:Cd 2:C 4:O|0.0",
  n!"AlC2O4+|1:Al 2:C 4:O|1.0",
  n!"YbC2O4+|1:Yb 2:C 4:O|1.0",
  n!"CeC2O4+|1:Ce 2:C 4:O|1.0",
  n!"NdC2O4+|1:Nd 2:C 4:O|1.0",
  n!"EuC2O4+|1:Eu 2:C 4:O|1.0",
  n!"GdC2O4+|1:Gd 2:C 4:O|1.0",
  n!"RuC2O4+|1:Ru 2:C 4:O|1.0",
  n!"PaC2O4+2|1:Pa 2:C 4:O|2.0",
  n!"ThC2O4+2|1:Th 2:C 4:O|2.0",
  n!"UC2O4+2|1:U 2:C 4:O|2.0",
  n!"NpC2O4+2|1:Np 2:C 4:O|2.0",
  n!"PuO6C2|1:Pu 6:O 2:C|0.0",
  n!"UO6C2|1:U 6:O 2:C|0.0",
  n!"AmC2O4+|1:Am 2:C 4:O|1.0",
  n!"CmC2O4+|1:Cm 2:C 4:O|1.0",
  n!"YC2O4+|1:Y 2:C 4:O|1.0",
  n!"BeC2O4|1:Be 2:C 4:O|0.0",
  n!"HgC2O4|1:Hg 2:C 4:O|0.0",
  n!"CrC2O4|1:Cr 2:C 4:O|0.0",
  n!"FeC2O4|1:Fe 2:C 4:O|0.0",
  n!"LaC2O4+|1:La 2:C 4:O|1.0",
  n!"TbC2O4+|1:Tb 2:C 4:O|1.0",
  n!"ErC2O4+|1:Er 2:C 4:O|1.0",
  n!"LuC2O4+|1:Lu 2:C 4:O|1.0",
  n!"CrC2O4+|1:Cr 2:C 4:O|1.0"]

/-- Compositions 1600 to 1699. -/
def good16 : List Nat := [
  n!"GaC2O4+|1:Ga 2:C 4:O|1.0",
  n!"ScC2O4+|1:Sc 2:C 4:O|1.0",
  n!"InC2O4+|1:In 2:C 4:O|1.0",
  n!"PuC2O4+2|1:Pu 2:C 4:O|2.0",
  n!"NpC2O6+2|1:Np 2:C 6:O|2.0",
  n!"SmC2O4+|1:Sm 2:C 4:O|1.0",
  n!"LiC2O4-|1:Li 2:C 4:O|-1.0",
  n!"SrC2O4|1:Sr 2:C 4:O|0.0",
  n!"BaC2O4|1:Ba 2:C 4:O|0.0",
  n!"LiC3H4O4-|1:Li 3:C 4:H 4:O|-1.0",
  n!"MgC3H4O4|1:Mg 3:C 4:H 4:O|0.0",
  n!"ZnC3H4O4|1:Zn 3:C 4:H 4:O|0.0",
  n!"CdC3H4O4|1:Cd 3:C 4:H 4:O|0.0",
  n!"AlC3H4O4+|1:Al 3:C 4:H 4:O|1.0",
  n!"PbC3H4O4|1:Pb 3:C 4:H 4:O|0.0",
  n!"NaC3H4O4-|1:Na 3:C 4:H 4:O|-1.0",
  n!"KC3H4O4-|1:K 3:C 4:H 4:O|-1.0",
  n!"LaC3H4O4+|1:La 3:C 4:H 4:O|1.0",
  n!"GdC3H4O4+|1:Gd 3:C 4:H 4:O|1.0",
  n!"LuC3H4O4+|1:Lu 3:C 4:H 4:O|1.0",
  n!"YbC3H4O4+|1:Yb 3:C 4:H 4:O|1.0",
  n!"ThC3H4O4+2|1:Th 3:C 4:H 4:O|2.0",
  n!"CuC3H4O4|1:Cu 3:C 4:H 4:O|0.0",
  n!"UC3H4O6|1:U 3:C 4:H 6:O|0.0",
  n!"CeC3H4O4+|1:Ce 3:C 4:H 4:O|1.0",
  n!"NdC3H4O4+|1:Nd 3:C 4:H 4:O|1.0",
  n!"SmC3H4O4+|1:Sm 3:C 4:H 4:O|1.0",
  n!"PrC3H4O4+|1:Pr 3:C 4:H 4:O|1.0",
  n!"EuC3H4O4+|1:Eu 3:C 4:H 4:O|1.0",
  n!"TbC3H4O4+|1:Tb 3:C 4:H 4:O|1.0",
  n!"DyC3H4O4+|1:Dy 3:C 4:H 4:O|1.0",
  n!"TmC3H4O4+|1:Tm 3:C 4:H 4:O|1.0",
  n!"HoC3H4O4+|1:Ho 3:C 4:H 4:O|1.0",
  n!"ErC3H4O4+|1:Er 3:C 4:H 4:O|1.0",
  n!"ScC3H4O4+|1:Sc 3:C 4:H 4:O|1.0",
  n!"FeC3H4O4+|1:Fe 3:C 4:H 4:O|1.0",
  n!"CsC3H4O4-|1:Cs 3:C 4:H 4:O|-1.0",
  n!"NH4C3H4O4-|1:N 4:H 3:C 4:H 4:O|-1.0",
  n!"SrC3H4O4|1:Sr 3:C 4:H 4:O|0.0",
  n!"CrC3H4O4|1:Cr 3:C 4:H 4:O|0.0",
  n!"BeC3H4O4|1:Be 3:C 4:H 4:O|0.0",
  n!"FeC3H4O4|1:Fe 3:C 4:H 4:O|0.0",
  n!"InC3H4O4+|1:In 3:C 4:H 4:O|1.0",
  n!"YC3H4O4+|1:Y 3:C 4:H 4:O|1.0",
  n!"CaC3H4O4|1:Ca 3:C 4:H 4:O|0.0",
  n!"BaC3H4O4|1:Ba 3:C 4:H 4:O|0.0",
  n!"MnC3H4O4|1:Mn 3:C 4:H 4:O|0.0",
  n!"CoC3H4O4|1:Co 3:C 4:H 4:O|0.0",
  n!"NiC3H4O4|1:Ni 3:C 4:H 4:O|0.0",
  n!"MnC4H4O4|1:Mn 4:C 4:H 4:O|0.0",
  n!"CoC4H4O4|1:Co 4:C 4:H 4:O|0.0",
  n!"NiC4H4O4|1:Ni 4:C 4:H 4:O|0.0",
  n!"PbC4H4O4|1:Pb 4:C 4:H 4:O|0.0",
  n!"NaC4H4O4-|1:Na 4:C 4:H 4:O|-1.0",
  n!"KC4H4O4-|1:K 4:C 4:H 4:O|-1.0",
  n!"CaC4H4O4|1:Ca 4:C 4:H 4:O|0.0",
  n!"CuC4H4O4|1:Cu 4:C 4:H 4:O|0.0",
  n!"ZnC4H4O4|1:Zn 4:C 4:H 4:O|0.0",
  n!"CdC4H4O4|1:Cd 4:C 4:H 4:O|0.0",
  n!"UO2C4H4O4|1:U 2:O 4:C 4:H 4:O|0.0",
  n!"ThC4H4O4+2|1:Th 4:C 4:H 4:O|2.0",
  n!"MgC4H4O4|1:Mg 4:C 4:H 4:O|0.0",
  n!"BaC4H4O4|1:Ba 4:C 4:H 4:O|0.0",
  n!"LaC4H4O4+|1:La 4:C 4:H 4:O|1.0",
  n!"NH4C4H4O4-|1:N 4:H 4:C 4:H 4:O|-1.0",
  n!"BeC4H4O4|1:Be 4:C 4:H 4:O|0.0",
  n!"FeC4H4O4+|1:Fe 4:C 4:H 4:O|1.0",
  n!"ScC4H4O4+|1:Sc 4:C 4:H 4:O|1.0",
  n!"PuO6C4H4|1:Pu 6:O 4:C 4:H|0.0",
  n!"NpO6C4H4-|1:Np 6:O 4:C 4:H|-1.0",
  n!"SmC4H4O4+|1:Sm 4:C 4:H 4:O|1.0",
  n!"ErC4H4O4+|1:Er 4:C 4:H 4:O|1.0",
  n!"UC4H4O4+2|1:U 4:C 4:H 4:O|2.0",
  n!"FeC4H4O4|1:Fe 4:C 4:H 4:O|0.0",
  n!"SrC4H4O4|1:Sr 4:C 4:H 4:O|0.0",
  n!"LiC4H4O4-|1:Li 4:C 4:H 4:O|-1.0",
  n!"CrC4H4O4|1:Cr 4:C 4:H 4:O|0.0",
  n!"CuC5H6O4|1:Cu 5:C 6:H 4:O|0.0",
  n!"ZnC5H6O4|1:Zn 5:C 6:H 4:O|0.0",
  n!"CdC5H6O4|1:Cd 5:C 6:H 4:O|0.0",
  n!"NiC5H6O4|1:Ni 5:C 6:H 4:O|0.0",
  n!"BaC5H6O4|1:Ba 5:C 6:H 4:O|0.0",
  n!"MnC5H6O4|1:Mn 5:C 6:H 4:O|0.0",
  n!"CoC5H6O4|1:Co 5:C 6:H 4:O|0.0",
  n!"LaC5H6O4+|1:La 5:C 6:H 4:O|1.0",
  n!"YC5H6O4+|1:Y 5:C 6:H 4:O|1.0",
  n!"ThC5H6O4+2|1:Th 5:C 6:H 4:O|2.0",
  n!"CaC5H6O4|1:Ca 5:C 6:H 4:O|0.0",
  n!"PbC5H6O4|1:Pb 5:C 6:H 4:O|0.0",
  n!"FeC5H6O4+|1:Fe 5:C 6:H 4:O|1.0",
  n!"SmC5H6O4+|1:Sm 5:C 6:H 4:O|1.0",
  n!"ScC5H6O4+|1:Sc 5:C 6:H 4:O|1.0",
  n!"UO2C5H6O4|1:U 2:O 5:C 6:H 4:O|0.0",
  n!"NpO2C5H6O4|1:Np 2:O 5:C 6:H 4:O|0.0",
  n!"MgC5H6O4|1:Mg 5:C 6:H 4:O|0.0",
  n!"SrC5H6O4|1:Sr 5:C 6:H 4:O|0.0",
  n!"ErC5H6O4+|1:Er 5:C 6:H 4:O|1.0",
  n!"NaC5H6O4-|1:Na 5:C 6:H 4:O|-1.0",
  n!"KC5H6O4-|1:K 5:C 6:H 4:O|-1.0",
  n!"LiC5H6O4-|1:Li 5:C 6:H 4:O|-1.0"]

/-- Compositions 1700 to 1799. -/
def good17 : List Nat := [
  n!"CrC5H6O4|1:Cr 5:C 6:H 4:O|0.0",
  n!"FeC5H6O4|1:Fe 5:C 6:H 4:O|0.0",
  n!"CaC6H8O4|1:Ca 6:C 8:H 4:O|0.0",
  n!"BaC6H8O4|1:Ba 6:C 8:H 4:O|0.0",
  n!"CoC6H8O4|1:Co 6:C 8:H 4:O|0.0",
  n!"NiC6H8O4|1:Ni 6:C 8:H 4:O|0.0",
  n!"CuC6H8O4|1:Cu 6:C 8:H 4:O|0.0",
  n!"ZnC6H8O4|1:Zn 6:C 8:H 4:O|0.0",
  n!"CdC6H8O4|1:Cd 6:C 8:H 4:O|0.0",
  n!"LaC6H8O4+|1:La 6:C 8:H 4:O|1.0",
  n!"PbC6H8O4|1:Pb 6:C 8:H 4:O|0.0",
  n!"ScC6H8O4+|1:Sc 6:C 8:H 4:O|1.0",
  n!"UO2C6H8O4|1:U 2:O 6:C 8:H 4:O|0.0",
  n!"ThC6H8O4+2|1:Th 6:C 8:H 4:O|2.0",
  n!"UC6H8O4+2|1:U 6:C 8:H 4:O|2.0",
  n!"NaC6H8O4-|1:Na 6:C 8:H 4:O|-1.0",
  n!"KC6H8O4-|1:K 6:C 8:H 4:O|-1.0",
  n!"LiC6H8O4-|1:Li 6:C 8:H 4:O|-1.0",
  n!"MgC6H8O4|1:Mg 6:C 8:H 4:O|0.0",
  n!"FeC6H8O4|1:Fe 6:C 8:H 4:O|0.0",
  n!"MnC6H8O4|1:Mn 6:C 8:H 4:O|0.0",
  n!"SrC6H8O4|1:Sr 6:C 8:H 4:O|0.0",
  n!"CrC6H8O4|1:Cr 6:C 8:H 4:O|0.0",
  n!"UC6H10O6|1:U 6:C 10:H 6:O|0.0",
  n!"C5H5N5|5:C 5:H 5:N|0.0",
  n!"C5H5N5O|5:C 5:H 5:N 1:O|0.0",
  n!"C4H5N3O|4:C 5:H 3:N 1:O|0.0",
  n!"C5H6N2O2|5:C 6:H 2:N 2:O|0.0",
  n!"C4H4N2O2|4:C 4:H 2:N 2:O|0.0",
  n!"C5H10O5|5:C 10:H 5:O|0.0",
  n!"C5H10O4|5:C 10:H 4:O|0.0",
  n!"C10H13N5O4|10:C 13:H 5:N 4:O|0.0",
  n!"C9H13N3O5|9:C 13:H 3:N 5:O|0.0",
  n!"C10H13N5O5|10:C 13:H 5:N 5:O|0.0",
  n!"C10H14N2O6|10:C 14:H 2:N 6:O|0.0",
  n!"C9H12N2O6|9:C 12:H 2:N 6:O|0.0",
  n!"C10H13N5O3|10:C 13:H 5:N 3:O|0.0",
  n!"C9H13N3O4|9:C 13:H 3:N 4:O|0.0",
  n!"C10H14N2O5|10:C 14:H 2:N 5:O|0.0",
  n!"C8H12N2O5|8:C 12:H 2:N 5:O|0.0",
  n!"C5H9O8P-2|5:C 9:H 8:O 1:P|-2.0",
  n!"C10H12N5O7P-2|10:C 12:H 5:N 7:O 1:P|-2.0",
  n!"C10H13N5O7P-|10:C 13:H 5:N 7:O 1:P|-1.0",
  n!"C10H14N5O7P|10:C 14:H 5:N 7:O 1:P|0.0",
  n!"C9H12N3O8P-2|9:C 12:H 3:N 8:O 1:P|-2.0",
  n!"C9H13N3O8P1-|9:C 13:H 3:N 8:O 1:P|-1.0",
  n!"C9H14N3O8P|9:C 14:H 3:N 8:O 1:P|0.0",
  n!"C10H12N5O8P-2|10:C 12:H 5:N 8:O 1:P|-2.0",
  n!"C10H13N5O8P1-|10:C 13:H 5:N 8:O 1:P|-1.0",
  n!"C10H14N5O8P|10:C 14:H 5:N 8:O 1:P|0.0",
  n!"C10H13N2O9P-2|10:C 13:H 2:N 9:O 1:P|-2.0",
  n!"C10H14N2O9P1-|10:C 14:H 2:N 9:O 1:P|-1.0",
  n!"C10H15N2O9P|10:C 15:H 2:N 9:O 1:P|0.0",
  n!"C9H11N2O9P-2|9:C 11:H 2:N 9:O 1:P|-2.0",
  n!"C9H12N2O9P1-|9:C 12:H 2:N 9:O 1:P|-1.0",
  n!"C9H13N2O9P|9:C 13:H 2:N 9:O 1:P|0.0",
  n!"C10H12N5O6P-2|10:C 12:H 5:N 6:O 1:P|-2.0",
  n!"C10H13N5O6P-|10:C 13:H 5:N 6:O 1:P|-1.0",
  n!"C9H12N3O7P-2|9:C 12:H 3:N 7:O 1:P|-2.0",
  n!"C9H13N3O7P1-|9:C 13:H 3:N 7:O 1:P|-1.0",
  n!"C9H14N3O7P|9:C 14:H 3:N 7:O 1:P|0.0",
  n!"C10H13N5O7P1-|10:C 13:H 5:N 7:O 1:P|-1.0",
  n!"C10H13N2O8P-2|10:C 13:H 2:N 8:O 1:P|-2.0",
  n!"C10H14N2O8P1-|10:C 14:H 2:N 8:O 1:P|-1.0",
  n!"C10H15N2O8P|10:C 15:H 2:N 8:O 1:P|0.0",
  n!"C9H11N2O8P-2|9:C 11:H 2:N 8:O 1:P|-2.0",
  n!"C9H12N2O8P1-|9:C 12:H 2:N 8:O 1:P|-1.0",
  n!"C9H13N2O8P|9:C 13:H 2:N 8:O 1:P|0.0",
  n!"C10H12N5O10P2-3|10:C 12:H 5:N 10:O 2:P|-3.0",
  n!"C10H13N5O10P2-2|10:C 13:H 5:N 10:O 2:P|-2.0",
  n!"C10H14N5O10P2-|10:C 14:H 5:N 10:O 2:P|-1.0",
  n!"C10H15N5O10P2|10:C 15:H 5:N 10:O 2:P|0.0",
  n!"C9H12N3O11P2-3|9:C 12:H 3:N 11:O 2:P|-3.0",
  n!"C9H13N3O11P2-2|9:C 13:H 3:N 11:O 2:P|-2.0",
  n!"C9H14N3O11P2-|9:C 14:H 3:N 11:O 2:P|-1.0",
  n!"C9H15N3O11P2|9:C 15:H 3:N 11:O 2:P|0.0",
  n!"C10H12N5O11P2-3|10:C 12:H 5:N 11:O 2:P|-3.0",
  n!"C10H14N5O11P2-|10:C 14:H 5:N 11:O 2:P|-1.0",
  n!"C10H15N5O11P2|10:C 15:H 5:N 11:O 2:P|0.0",
  n!"C10H13N2O12P2-3|10:C 13:H 2:N 12:O 2:P|-3.0",
  n!"C10H14N2O12P2-2|10:C 14:H 2:N 12:O 2:P|-2.0",
  n!"C10H15N2O12P2-|10:C 15:H 2:N 12:O 2:P|-1.0",
  n!"C10H16N2O12P2|10:C 16:H 2:N 12:O 2:P|0.0",
  n!"C9H11N2O12P2-3|9:C 11:H 2:N 12:O 2:P|-3.0",
  n!"C9H12N2O12P2-2|9:C 12:H 2:N 12:O 2:P|-2.0",
  n!"C9H13N2O12P2-|9:C 13:H 2:N 12:O 2:P|-1.0",
  n!"C9H14N2O12P2|9:C 14:H 2:N 12:O 2:P|0.0",
  n!"C10H12N5O9P2-3|10:C 12:H 5:N 9:O 2:P|-3.0",
  n!"C10H13N5O9P2-2|10:C 13:H 5:N 9:O 2:P|-2.0",
  n!"C10H14N5O9P2-|10:C 14:H 5:N 9:O 2:P|-1.0",
  n!"C10H15N5O9P2|10:C 15:H 5:N 9:O 2:P|0.0",
  n!"C9H12N3O10P2-3|9:C 12:H 3:N 10:O 2:P|-3.0",
  n!"C9H13N3O10P2-2|9:C 13:H 3:N 10:O 2:P|-2.0",
  n!"C9H14N3O10P2-|9:C 14:H 3:N 10:O 2:P|-1.0",
  n!"C9H15N3O10P2|9:C 15:H 3:N 10:O 2:P|0.0",
  n!"C10H13N2O11P2-3|10:C 13:H 2:N 11:O 2:P|-3.0",
  n!"C10H14N2O11P2-2|10:C 14:H 2:N 11:O 2:P|-2.0",
  n!"C10H15N2O11P2-|10:C 15:H 2:N 11:O 2:P|-1.0",
  n!"C10H16N2O11P2|10:C 16:H 2:N 11:O 2:P|0.0",
  n!"C9H11N2O11P2-3|9:C 11:H 2:N 11:O 2:P|-3.0"]

/-- Compositions 1800 to 1899. -/
def good18 : List Nat := [
  n!"C9H12N2O11P2-2|9:C 12:H 2:N 11:O 2:P|-2.0",
  n!"C9H13N2O11P2-|9:C 13:H 2:N 11:O 2:P|-1.0",
  n!"C9H14N2O11P2|9:C 14:H 2:N 11:O 2:P|0.0",
  n!"C10H12N5O13P3-4|10:C 12:H 5:N 13:O 3:P|-4.0",
  n!"C10H13N5O13P3-3|10:C 13:H 5:N 13:O 3:P|-3.0",
  n!"C10H14N5O13P3-2|10:C 14:H 5:N 13:O 3:P|-2.0",
  n!"C10H15N5O13P3-|10:C 15:H 5:N 13:O 3:P|-1.0",
  n!"C10H16N5O13P3|10:C 16:H 5:N 13:O 3:P|0.0",
  n!"C9H12N3O14P3-4|9:C 12:H 3:N 14:O 3:P|-4.0",
  n!"C9H13N3O14P3-3|9:C 13:H 3:N 14:O 3:P|-3.0",
  n!"C9H14N3O14P3-2|9:C 14:H 3:N 14:O 3:P|-2.0",
  n!"C9H15N3O14P3-|9:C 15:H 3:N 14:O 3:P|-1.0",
  n!"C9H16N3O14P3|9:C 16:H 3:N 14:O 3:P|0.0",
  n!"C10H12N5O14P3-4|10:C 12:H 5:N 14:O 3:P|-4.0",
  n!"C10H13N5O14P3-3|10:C 13:H 5:N 14:O 3:P|-3.0",
  n!"C10H14N5O14P3-2|10:C 14:H 5:N 14:O 3:P|-2.0",
  n!"C10H15N5O14P3-|10:C 15:H 5:N 14:O 3:P|-1.0",
  n!"C10H16N5O14P3|10:C 16:H 5:N 14:O 3:P|0.0",
  n!"C10H13N2O15P3-4|10:C 13:H 2:N 15:O 3:P|-4.0",
  n!"C10H14N2O15P3-3|10:C 14:H 2:N 15:O 3:P|-3.0",
  n!"C10H15N2O15P3-2|10:C 15:H 2:N 15:O 3:P|-2.0",
  n!"C10H16N2O15P3-|10:C 16:H 2:N 15:O 3:P|-1.0",
  n!"C10H17N2O15P3|10:C 17:H 2:N 15:O 3:P|0.0",
  n!"C9H11N2O15P3-4|9:C 11:H 2:N 15:O 3:P|-4.0",
  n!"C9H12N2O15P3-3|9:C 12:H 2:N 15:O 3:P|-3.0",
  n!"C9H13N2O15P3-2|9:C 13:H 2:N 15:O 3:P|-2.0",
  n!"C9H14N2O15P3-|9:C 14:H 2:N 15:O 3:P|-1.0",
  n!"C9H15N2O15P3|9:C 15:H 2:N 15:O 3:P|0.0",
  n!"C10H12N5O12P3-4|10:C 12:H 5:N 12:O 3:P|-4.0",
  n!"C10H13N5O12P3-3|10:C 13:H 5:N 12:O 3:P|-3.0",
  n!"C10H14N5O12P3-2|10:C 14:H 5:N 12:O 3:P|-2.0",
  n!"C10H15N5O12P3-|10:C 15:H 5:N 12:O 3:P|-1.0",
  n!"C10H16N5O12P3|10:C 16:H 5:N 12:O 3:P|0.0",
  n!"C9H12N3O13P3-4|9:C 12:H 3:N 13:O 3:P|-4.0",
  n!"C9H13N3O13P3-3|9:C 13:H 3:N 13:O 3:P|-3.0",
  n!"C9H14N3O13P3-2|9:C 14:H 3:N 13:O 3:P|-2.0",
  n!"C9H15N3O13P3-|9:C 15:H 3:N 13:O 3:P|-1.0",
  n!"C9H16N3O13P3|9:C 16:H 3:N 13:O 3:P|0.0",
  n!"C10H13N2O14P3-4|10:C 13:H 2:N 14:O 3:P|-4.0",
  n!"C10H14N2O14P3-3|10:C 14:H 2:N 14:O 3:P|-3.0",
  n!"C10H15N2O14P3-2|10:C 15:H 2:N 14:O 3:P|-2.0",
  n!"C10H16N2O14P3-|10:C 16:H 2:N 14:O 3:P|-1.0",
  n!"C10H17N2O14P3|10:C 17:H 2:N 14:O 3:P|0.0",
  n!"C9H11N2O14P3-4|9:C 11:H 2:N 14:O 3:P|-4.0",
  n!"C9H12N2O14P3-3|9:C 12:H 2:N 14:O 3:P|-3.0",
  n!"C9H13N2O14P3-2|9:C 13:H 2:N 14:O 3:P|-2.0",
  n!"C9H14N2O14P3-|9:C 14:H 2:N 14:O 3:P|-1.0",
  n!"C9H15N2O14P3|9:C 15:H 2:N 14:O 3:P|0.0",
  n!"CH3SH|1:C 4:H 1:S|0.0",
  n!"C2H5SH|2:C 6:H 1:S|0.0",
  n!"C3H7SH|3:C 8:H 1:S|0.0",
  n!"C4H9SH|4:C 10:H 1:S|0.0",
  n!"C5H11SH|5:C 12:H 1:S|0.0",
  n!"C6H13SH|6:C 14:H 1:S|0.0",
  n!"C7H15SH|7:C 16:H 1:S|0.0",
  n!"C8H17SH|8:C 18:H 1:S|0.0",
  n!"C9H19SH|9:C 20:H 1:S|0.0",
  n!"C10H21SH|10:C 22:H 1:S|0.0",
  n!"C11H23SH|11:C 24:H 1:S|0.0",
  n!"C12H25SH|12:C 26:H 1:S|0.0",
  n!"C6H12O6|6:C 12:H 6:O|0.0",
  n!"MgC10H12N5O7P1|1:Mg 10:C 12:H 5:N 7:O 1:P|0.0",
  n!"MgC10H12N5O10P2-|1:Mg 10:C 12:H 5:N 10:O 2:P|-1.0",
  n!"MgC10H13N5O10P2|1:Mg 10:C 13:H 5:N 10:O 2:P|0.0",
  n!"Mg2C10H12N5O10P2+|2:Mg 10:C 12:H 5:N 10:O 2:P|1.0",
  n!"MgC10H12N5O13P3-2|1:Mg 10:C 12:H 5:N 13:O 3:P|-2.0",
  n!"MgC10H13N5O13P3-|1:Mg 10:C 13:H 5:N 13:O 3:P|-1.0",
  n!"MgC10H14N5O13P3|1:Mg 10:C 14:H 5:N 13:O 3:P|0.0",
  n!"Mg2C10H12N5O13P3|2:Mg 10:C 12:H 5:N 13:O 3:P|0.0",
  n!"C11H17N2O8P1|11:C 17:H 2:N 8:O 1:P|0.0",
  n!"C11H16N2O8P1-|11:C 16:H 2:N 8:O 1:P|-1.0",
  n!"C11H15N2O8P1-2|11:C 15:H 2:N 8:O 1:P|-2.0",
  n!"C11H16N2O8P1+|11:C 16:H 2:N 8:O 1:P|1.0",
  n!"C11H15N2O8P1|11:C 15:H 2:N 8:O 1:P|0.0",
  n!"C11H14N2O8P1-|11:C 14:H 2:N 8:O 1:P|-1.0",
  n!"C21H29N7O14P2|21:C 29:H 7:N 14:O 2:P|0.0",
  n!"C21H28N7O14P2-|21:C 28:H 7:N 14:O 2:P|-1.0",
  n!"C21H27N7O14P2-2|21:C 27:H 7:N 14:O 2:P|-2.0",
  n!"C21H28N7O14P2+|21:C 28:H 7:N 14:O 2:P|1.0",
  n!"C21H27N7O14P2|21:C 27:H 7:N 14:O 2:P|0.0",
  n!"C21H26N7O14P2-|21:C 26:H 7:N 14:O 2:P|-1.0",
  n!"C5H11O8P1|5:C 11:H 8:O 1:P|0.0",
  n!"C5H10O8P1-|5:C 10:H 8:O 1:P|-1.0",
  n!"C21H30N7O17P3|21:C 30:H 7:N 17:O 3:P|0.0",
  n!"C21H29N7O17P3-|21:C 29:H 7:N 17:O 3:P|-1.0",
  n!"C21H28N7O17P3-2|21:C 28:H 7:N 17:O 3:P|-2.0",
  n!"C21H27N7O17P3-3|21:C 27:H 7:N 17:O 3:P|-3.0",
  n!"C21H26N7O17P3-4|21:C 26:H 7:N 17:O 3:P|-4.0",
  n!"C21H29N7O17P3+|21:C 29:H 7:N 17:O 3:P|1.0",
  n!"C21H28N7O17P3|21:C 28:H 7:N 17:O 3:P|0.0",
  n!"C21H27N7O17P3-|21:C 27:H 7:N 17:O 3:P|-1.0",
  n!"C21H26N7O17P3-2|21:C 26:H 7:N 17:O 3:P|-2.0",
  n!"C21H25N7O17P3-3|21:C 25:H 7:N 17:O 3:P|-3.0",
  n!"CH3|1:C 3:H|",
  n!"C4H10N3|4:C 10:H 3:N|",
  n!"C2H4NO|2:C 4:H 1:N 1:O|",
  n!"C2H3O2|2:C 3:H 2:O|",
  n!"CH3S|1:C 3:H 1:S|",
  n!"C3H5O2|3:C 5:H 2:O|",
  n!"C3H6NO|3:C 6:H 1:N 1:O|"]

/-- Compositions 1900 to 1999. -/
def good19 : List Nat := [
  n!"C4H5N2|4:C 5:H 2:N|",
  n!"C4H9|4:C 9:H|",
  n!"C4H10N|4:C 10:H 1:N|",
  n!"C3H7S|3:C 7:H 1:S|",
  n!"C7H7|7:C 7:H|",
  n!"C3H5|3:C 5:H|",
  n!"CH3O|1:C 3:H 1:O|",
  n!"C2H5O|2:C 5:H 1:O|",
  n!"C9H8N|9:C 8:H 1:N|",
  n!"C7H7O|7:C 7:H 1:O|",
  n!"C3H7|3:C 7:H|",
  n!"C3H5O|3:C 5:H 1:O|",
  n!"C4H10NO|4:C 10:H 1:N 1:O|",
  n!"C2H4NO2|2:C 4:H 1:N 2:O|",
  n!"C2H2NO|2:C 2:H 1:N 1:O|",
  n!"C5H10N2O3|5:C 10:H 2:N 3:O|",
  n!"C3H7NO2S|3:C 7:H 1:N 2:O 1:S|",
  n!"C2H5NO2|2:C 5:H 1:N 2:O|",
  n!"C4H8N2O3|4:C 8:H 2:N 3:O|",
  n!"C6H11N3O4|6:C 11:H 3:N 4:O|",
  n!"C5H9NO3|5:C 9:H 1:N 3:O|",
  n!"C6H14N2O3|6:C 14:H 2:N 3:O|",
  n!"C6H13NO2|6:C 13:H 1:N 2:O|",
  n!"C8H16N2O3|8:C 16:H 2:N 3:O|",
  n!"C5H11NO2S|5:C 11:H 1:N 2:O 1:S|",
  n!"C3H7NO2|3:C 7:H 1:N 2:O|",
  n!"C5H11NO2|5:C 11:H 1:N 2:O|",
  n!"C4H7NO4|4:C 7:H 1:N 4:O|",
  n!"C5H9NO4|5:C 9:H 1:N 4:O|",
  n!"C5H9NO2|5:C 9:H 1:N 2:O|",
  n!"C9H11NO2|9:C 11:H 1:N 2:O|",
  n!"C11H12N2O2|11:C 12:H 2:N 2:O|",
  n!"C3H7NO3|3:C 7:H 1:N 3:O|",
  n!"C4H9NO3|4:C 9:H 1:N 3:O|",
  n!"C9H11NO3|9:C 11:H 1:N 3:O|",
  n!"C6H14N2O2|6:C 14:H 2:N 2:O|",
  n!"C6H14N4O2|6:C 14:H 4:N 2:O|",
  n!"C6H9N3O2|6:C 9:H 3:N 2:O|",
  n!"C9H12N2O5|9:C 12:H 2:N 5:O|0.0",
  n!"C9H13N3O8P-|9:C 13:H 3:N 8:O 1:P|-1.0",
  n!"C10H13N5O8P-|10:C 13:H 5:N 8:O 1:P|-1.0",
  n!"C10H14N2O9P-|10:C 14:H 2:N 9:O 1:P|-1.0",
  n!"C9H12N2O9P-|9:C 12:H 2:N 9:O 1:P|-1.0",
  n!"C10H14N5O6P|10:C 14:H 5:N 6:O 1:P|0.0",
  n!"C9H13N3O7P-|9:C 13:H 3:N 7:O 1:P|-1.0",
  n!"C10H14N2O8P-|10:C 14:H 2:N 8:O 1:P|-1.0",
  n!"C9H12N2O8P-|9:C 12:H 2:N 8:O 1:P|-1.0",
  n!"C10H13N5O11P2-2|10:C 13:H 5:N 11:O 2:P|-2.0",
  n!"MgC10H12N5O7P|1:Mg 10:C 12:H 5:N 7:O 1:P|0.0",
  n!"C11H17N2O8P|11:C 17:H 2:N 8:O 1:P|0.0",
  n!"C11H16N2O8P-|11:C 16:H 2:N 8:O 1:P|-1.0",
  n!"C11H15N2O8P-2|11:C 15:H 2:N 8:O 1:P|-2.0",
  n!"C11H16N2O8P+|11:C 16:H 2:N 8:O 1:P|1.0",
  n!"C11H15N2O8P|11:C 15:H 2:N 8:O 1:P|0.0",
  n!"C11H14N2O8P-|11:C 14:H 2:N 8:O 1:P|-1.0",
  n!"C5H11O8P|5:C 11:H 8:O 1:P|0.0",
  n!"C5H10O8P-|5:C 10:H 8:O 1:P|-1.0",
  n!"CH3|1:C 3:H|0.0",
  n!"C4H10N3|4:C 10:H 3:N|0.0",
  n!"C4H11N3+|4:C 11:H 3:N|1.0",
  n!"C2H4NO|2:C 4:H 1:N 1:O|0.0",
  n!"C2H3O2|2:C 3:H 2:O|0.0",
  n!"C2H2O2-|2:C 2:H 2:O|-1.0",
  n!"CH3S|1:C 3:H 1:S|0.0",
  n!"CH2S-|1:C 2:H 1:S|-1.0",
  n!"C3H6NO|3:C 6:H 1:N 1:O|0.0",
  n!"C3H5O2|3:C 5:H 2:O|0.0",
  n!"C3H4O2-|3:C 4:H 2:O|-1.0",
  n!"C4H5N2|4:C 5:H 2:N|0.0",
  n!"C4H6N2+|4:C 6:H 2:N|1.0",
  n!"C4H9|4:C 9:H|0.0",
  n!"C4H10N|4:C 10:H 1:N|0.0",
  n!"C4H11N+|4:C 11:H 1:N|1.0",
  n!"C3H7S|3:C 7:H 1:S|0.0",
  n!"C7H7|7:C 7:H|0.0",
  n!"C3H5|3:C 5:H|0.0",
  n!"CH3O|1:C 3:H 1:O|0.0",
  n!"C2H5O|2:C 5:H 1:O|0.0",
  n!"C9H8N|9:C 8:H 1:N|0.0",
  n!"C7H7O|7:C 7:H 1:O|0.0",
  n!"C7H6O-|7:C 6:H 1:O|-1.0",
  n!"C3H7|3:C 7:H|0.0",
  n!"C2H4NO2|2:C 4:H 1:N 2:O|0.0",
  n!"C2H5NO2+|2:C 5:H 1:N 2:O|1.0",
  n!"C2H3NO2-|2:C 3:H 1:N 2:O|-1.0",
  n!"C2H2NO|2:C 2:H 1:N 1:O|0.0",
  n!"CH2|1:C 2:H|0.0",
  n!"CH4N|1:C 4:H 1:N|0.0",
  n!"CH2NO|1:C 2:H 1:N 1:O|0.0",
  n!"CHO2|1:C 1:H 2:O|0.0",
  n!"C6H5|6:C 5:H|0.0",
  n!"C6H8O7|6:C 8:H 7:O|0.0",
  n!"C6H7O7-|6:C 7:H 7:O|-1.0",
  n!"C6H6O7-2|6:C 6:H 7:O|-2.0",
  n!"C6H5O7-3|6:C 5:H 7:O|-3.0",
  n!"C6H6O6|6:C 6:H 6:O|0.0",
  n!"C6H4O6-2|6:C 4:H 6:O|-2.0",
  n!"C6H3O6-3|6:C 3:H 6:O|-3.0",
  n!"C5H6O5|5:C 6:H 5:O|0.0",
  n!"C5H5O5-|5:C 5:H 5:O|-1.0"]

/-- Compositions 2000 to 2099. -/
def good20 : List Nat := [
  n!"C5H4O5-2|5:C 4:H 5:O|-2.0",
  n!"C4H4O4|4:C 4:H 4:O|0.0",
  n!"C4H3O4-|4:C 3:H 4:O|-1.0",
  n!"C4H2O4-2|4:C 2:H 4:O|-2.0",
  n!"C4H6O5|4:C 6:H 5:O|0.0",
  n!"C4H5O5-|4:C 5:H 5:O|-1.0",
  n!"C4H4O5|4:C 4:H 5:O|0.0",
  n!"C4H3O5-|4:C 3:H 5:O|-1.0",
  n!"C4H2O5-2|4:C 2:H 5:O|-2.0",
  n!"C3H4O3|3:C 4:H 3:O|0.0",
  n!"C3H3O3-|3:C 3:H 3:O|-1.0",
  n!"Mg3Cr2Si3O12|3:Mg 2:Cr 3:Si 12:O|",
  n!"Mg4Si4O12|4:Mg 4:Si 12:O|",
  n!"Mg9Si4O18H2|9:Mg 4:Si 18:O 2:H|",
  n!"Mn2SiO4|2:Mn 1:Si 4:O|",
  n!"Al2.5Si0.5O4.75|2.5:Al 0.5:Si 4.75:O|",
  n!"FeAl2SiO7H2|1:Fe 2:Al 1:Si 7:O 2:H|",
  n!"MgAl2SiO7H2|1:Mg 2:Al 1:Si 7:O 2:H|",
  n!"MnAl2SiO7H2|1:Mn 2:Al 1:Si 7:O 2:H|",
  n!"Fe4Al18Si7.5O48H4|4:Fe 18:Al 7.5:Si 48:O 4:H|",
  n!"Mg4Al18Si7.5O48H4|4:Mg 18:Al 7.5:Si 48:O 4:H|",
  n!"Mn4Al18Si7.5O48H4|4:Mn 18:Al 7.5:Si 48:O 4:H|",
  n!"Al2SiO6H2|2:Al 1:Si 6:O 2:H|",
  n!"Ca4Fe6Si6O28H7|4:Ca 6:Fe 6:Si 28:O 7:H|",
  n!"Ca3MgSi2O8|3:Ca 1:Mg 2:Si 8:O|",
  n!"Ca4FeAl5Si6O28H7|4:Ca 1:Fe 5:Al 6:Si 28:O 7:H|",
  n!"Ca4MgAl5Si6O28H7|4:Ca 1:Mg 5:Al 6:Si 28:O 7:H|",
  n!"Ca3Si2O7|3:Ca 2:Si 7:O|",
  n!"Ca5Si2C2O13|5:Ca 2:Si 2:C 13:O|",
  n!"ZrSiO4|1:Zr 1:Si 4:O|",
  n!"Ca2Al3Si3O13H|2:Ca 3:Al 3:Si 13:O 1:H|",
  n!"Ca2FeAl2Si3O13H|2:Ca 1:Fe 2:Al 3:Si 13:O 1:H|",
  n!"Ca2Fe2AlSi3O13H|2:Ca 2:Fe 1:Al 3:Si 13:O 1:H|",
  n!"CaAl2Si2O10H4|1:Ca 2:Al 2:Si 10:O 4:H|",
  n!"Ca2MnAl2Si3O13H|2:Ca 1:Mn 2:Al 3:Si 13:O 1:H|",
  n!"Ca19Mg2Al11Si18O78H9|19:Ca 2:Mg 11:Al 18:Si 78:O 9:H|",
  n!"KFe2Al5Si10O30|1:K 2:Fe 5:Al 10:Si 30:O|",
  n!"KMg2Al5Si10O30|1:K 2:Mg 5:Al 10:Si 30:O|",
  n!"KMg3Al3Si11O30|1:K 3:Mg 3:Al 11:Si 30:O|",
  n!"CaSi2O5|1:Ca 2:Si 5:O|",
  n!"Mg7Si2O14H6|7:Mg 2:Si 14:O 6:H|",
  n!"NaFeSi2O6|1:Na 1:Fe 2:Si 6:O|",
  n!"Ca0.5AlSi2O6|0.5:Ca 1:Al 2:Si 6:O|",
  n!"Mg2Si2O6|2:Mg 2:Si 6:O|",
  n!"CaMgSi2O6|1:Ca 1:Mg 2:Si 6:O|",
  n!"Fe2Si2O6|2:Fe 2:Si 6:O|",
  n!"CaFeSi2O6|1:Ca 1:Fe 2:Si 6:O|",
  n!"NaCrSi2O6|1:Na 1:Cr 2:Si 6:O|",
  n!"MgAl2SiO6|1:Mg 2:Al 1:Si 6:O|",
  n!"MnSiO3|1:Mn 1:Si 3:O|",
  n!"Mg7Si8O24H2|7:Mg 8:Si 24:O 2:H|",
  n!"Fe7Si8O24H2|7:Fe 8:Si 24:O 2:H|",
  n!"Ca2Fe5Si8O24H2|2:Ca 5:Fe 8:Si 24:O 2:H|",
  n!"Na2Fe3Al2Si8O24H2|2:Na 3:Fe 2:Al 8:Si 24:O 2:H|",
  n!"Na2Mg3Al2Si8O24H2|2:Na 3:Mg 2:Al 8:Si 24:O 2:H|",
  n!"NaCa2Mg4Al3Si6O24H2|1:Na 2:Ca 4:Mg 3:Al 6:Si 24:O 2:H|",
  n!"Na2Fe5Si8O24H2|2:Na 5:Fe 8:Si 24:O 2:H|",
  n!"Ca2Mg5Si8O24H2|2:Ca 5:Mg 8:Si 24:O 2:H|",
  n!"Ca2Mg3Al4Si6O24H2|2:Ca 3:Mg 4:Al 6:Si 24:O 2:H|",
  n!"Fe18Si12O50H10|18:Fe 12:Si 50:O 10:H|",
  n!"FeAl2Si2O10H4|1:Fe 2:Al 2:Si 10:O 4:H|",
  n!"MgAl2Si2O10H4|1:Mg 2:Al 2:Si 10:O 4:H|",
  n!"Fe4Al8Si2O20|4:Fe 8:Al 2:Si 20:O|",
  n!"Mg4Al8Si2O20|4:Mg 8:Al 2:Si 20:O|",
  n!"Mg3Al10SiO20|3:Mg 10:Al 1:Si 20:O|",
  n!"KFe3AlSi3O12H2|1:K 3:Fe 1:Al 3:Si 12:O 2:H|",
  n!"KMgAlSi4O12H2|1:K 1:Mg 1:Al 4:Si 12:O 2:H|",
  n!"KFeAlSi4O12H2|1:K 1:Fe 1:Al 4:Si 12:O 2:H|",
  n!"KMg2Al3Si2O12H2|1:K 2:Mg 3:Al 2:Si 12:O 2:H|",
  n!"CaAl4Si2O12H2|1:Ca 4:Al 2:Si 12:O 2:H|",
  n!"KMn3AlSi3O12H2|1:K 3:Mn 1:Al 3:Si 12:O 2:H|",
  n!"KAl3Si3O12H2|1:K 3:Al 3:Si 12:O 2:H|",
  n!"NaMg3AlSi3O12H2|1:Na 3:Mg 1:Al 3:Si 12:O 2:H|",
  n!"NaAl3Si3O12H2|1:Na 3:Al 3:Si 12:O 2:H|",
  n!"KMg3AlSi3O12H2|1:K 3:Mg 1:Al 3:Si 12:O 2:H|",
  n!"Mg6Si4O18H8|6:Mg 4:Si 18:O 8:H|",
  n!"Mg4Al4Si2O18H8|4:Mg 4:Al 2:Si 18:O 8:H|",
  n!"Mg5Al2Si3O18H8|5:Mg 2:Al 3:Si 18:O 8:H|",
  n!"Fe5Al2Si3O18H8|5:Fe 2:Al 3:Si 18:O 8:H|",
  n!"Mn5Al2Si3O18H8|5:Mn 2:Al 3:Si 18:O 8:H|",
  n!"Fe2Al4Si3O18H8|2:Fe 4:Al 3:Si 18:O 8:H|",
  n!"Mg2Al4Si3O18H8|2:Mg 4:Al 3:Si 18:O 8:H|",
  n!"Mg48Si34O147H62|48:Mg 34:Si 147:O 62:H|",
  n!"Mg3Si2O9H4|3:Mg 2:Si 9:O 4:H|",
  n!"Fe3Si4O12H2|3:Fe 4:Si 12:O 2:H|",
  n!"Fe3Si2O9H4|3:Fe 2:Si 9:O 4:H|",
  n!"Al2Si2O9H4|2:Al 2:Si 9:O 4:H|",
  n!"Mg3Si4O12H2|3:Mg 4:Si 12:O 2:H|",
  n!"Ca2Al2Si3O12H2|2:Ca 2:Al 3:Si 12:O 2:H|",
  n!"Al2Si4O12H2|2:Al 4:Si 12:O 2:H|",
  n!"K0.5Fe5Al2Si8O30.5H12.5|0.5:K 5:Fe 2:Al 8:Si 30.5:O 12.5:H|",
  n!"K0.5Mg5Al2Si8O30.5H12.5|0.5:K 5:Mg 2:Al 8:Si 30.5:O 12.5:H|",
  n!"Mg2Al2Si3O12H2|2:Mg 2:Al 3:Si 12:O 2:H|",
  n!"Ca2FeAlSi3O12H2|2:Ca 1:Fe 1:Al 3:Si 12:O 2:H|",
  n!"NaAlSi2O7H2|1:Na 1:Al 2:Si 7:O 2:H|",
  n!"NaAlSiO4|1:Na 1:Al 1:Si 4:O|",
  n!"KAlSi3O9H2|1:K 1:Al 3:Si 9:O 2:H|",
  n!"KAlSiO4|1:K 1:Al 1:Si 4:O|",
  n!"KAlSi3O8|1:K 1:Al 3:Si 8:O|",
  n!"CaAl2Si7O24H12|1:Ca 2:Al 7:Si 24:O 12:H|"]

/-- Compositions 2100 to 2199. -/
def good21 : List Nat := [
  n!"CaAl2Si4O16H8|1:Ca 2:Al 4:Si 16:O 8:H|",
  n!"Ca4Al6Si6CO27|4:Ca 6:Al 6:Si 1:C 27:O|",
  n!"Na8Al6Si6O24Cl2|8:Na 6:Al 6:Si 24:O 2:Cl|",
  n!"CaAl2Si7O25H14|1:Ca 2:Al 7:Si 25:O 14:H|",
  n!"K2Si4O9|2:K 4:Si 9:O|",
  n!"CaAl2Si4O14H4|1:Ca 2:Al 4:Si 14:O 4:H|",
  n!"ZrO2|1:Zr 2:O|",
  n!"Mn2O3|2:Mn 3:O|",
  n!"Cr2O3|2:Cr 3:O|",
  n!"MgTiO3|1:Mg 1:Ti 3:O|",
  n!"MnTiO3|1:Mn 1:Ti 3:O|",
  n!"Fe2TiO4|2:Fe 1:Ti 4:O|",
  n!"MgO2H2|1:Mg 2:O 2:H|",
  n!"AlO2H|1:Al 2:O 1:H|",
  n!"FeO2H|1:Fe 2:O 1:H|",
  n!"AlO3H3|1:Al 3:O 3:H|",
  n!"KMg3AlSi3O10F2|1:K 3:Mg 1:Al 3:Si 10:O 2:F|",
  n!"Ca5P3O13H|5:Ca 3:P 13:O 1:H|",
  n!"Ca5P3O12F|5:Ca 3:P 12:O 1:F|",
  n!"Ca5P3O12Cl|5:Ca 3:P 12:O 1:Cl|",
  n!"As|1:As|",
  n!"As2O3|2:As 3:O|",
  n!"As2O5|2:As 5:O|",
  n!"AsS|1:As 1:S|",
  n!"As2S3|2:As 3:S|",
  n!"FeAsS|1:Fe 1:As 1:S|",
  n!"FeAsH4O6|1:Fe 1:As 4:H 6:O|",
  n!"Ba3As2O8|3:Ba 2:As 8:O|",
  n!"BaAsH3O5|1:Ba 1:As 3:H 5:O|",
  n!"GaO2H|1:Ga 2:O 1:H|",
  n!"NaAlCO5H2|1:Na 1:Al 1:C 5:O 2:H|",
  n!"Mg3.5Al9Si1.5O20|3.5:Mg 9:Al 1.5:Si 20:O|",
  n!"Fe3.5Al9Si1.5O20|3.5:Fe 9:Al 1.5:Si 20:O|",
  n!"Mg5Al4Si6O24H2|5:Mg 4:Al 6:Si 24:O 2:H|",
  n!"Ca.165Al2.33Si3.67O12H2|.165:Ca 2.33:Al 3.67:Si 12:O 2:H|",
  n!"H.33Al2.33Si3.67O12H2|2.33:Al 3.67:Si 12:O 2.33:H|",
  n!"K.33Al2.33Si3.67O12H2|.33:K 2.33:Al 3.67:Si 12:O 2:H|",
  n!"Mg.165Al2.33Si3.67O12H2|.165:Mg 2.33:Al 3.67:Si 12:O 2:H|",
  n!"Na.33Al2.33Si3.67O12H2|.33:Na 2.33:Al 3.67:Si 12:O 2:H|",
  n!"Ca.165Mg.33Al1.67Si4O12H2|.165:Ca .33:Mg 1.67:Al 4:Si 12:O 2:H|",
  n!"K.33Mg.33Al1.67Si4O12H2|.33:K .33:Mg 1.67:Al 4:Si 12:O 2:H|",
  n!"Mg.495Al1.67Si4O12H2|.495:Mg 1.67:Al 4:Si 12:O 2:H|",
  n!"Na.33Mg.33Al1.67Si4O12H2|.33:Na .33:Mg 1.67:Al 4:Si 12:O 2:H|",
  n!"Ca.165Fe2Al.33Si3.67O12H2|.165:Ca 2:Fe .33:Al 3.67:Si 12:O 2:H|",
  n!"Mg.165Fe2Al.33Si3.67O12H2|.165:Mg 2:Fe .33:Al 3.67:Si 12:O 2:H|",
  n!"H.33Fe2Al.33Si3.67O12H2|2:Fe .33:Al 3.67:Si 12:O 2.33:H|",
  n!"K.33Fe2Al.33Si3.67O12H2|.33:K 2:Fe .33:Al 3.67:Si 12:O 2:H|",
  n!"Na.33Fe2Al.33Si3.67O12H2|.33:Na 2:Fe .33:Al 3.67:Si 12:O 2:H|",
  n!"Mg3.165Al.33Si3.67O10(OH)2|3.165:Mg .33:Al 3.67:Si 12:O 2:H|",
  n!"K.6Mg.25Al1.8Al.5Si3.5O10(OH)2|0.6:K 0.25:Mg 2.3:Al 3.5:Si 12:O 2:H|",
  n!"FeTiO3|1:Fe 1:Ti 3:O|",
  n!"MgFe2O4|1:Mg 2:Fe 4:O|",
  n!"Fe0.875S|0.875:Fe 1:S|",
  n!"Ca2Al2SiO7|2:Ca 2:Al 1:Si 7:O|",
  n!"Mg2Al4Si5O18|2:Mg 4:Al 5:Si 18:O|",
  n!"Mg2Al4Si5O19H2|2:Mg 4:Al 5:Si 19:O 2:H|",
  n!"Fe2Al4Si5O18|2:Fe 4:Al 5:Si 18:O|",
  n!"Mn2Al4Si5O18|2:Mn 4:Al 5:Si 18:O|",
  n!"CaAl2SiO6|1:Ca 2:Al 1:Si 6:O|",
  n!"CaAl2Si2O8|1:Ca 2:Al 2:Si 8:O|",
  n!"KAlSi2O6|1:K 1:Al 2:Si 6:O|",
  n!"FeAl2O4|1:Fe 2:Al 4:O|",
  n!"MgCr2O4|1:Mg 2:Cr 4:O|",
  n!"CaMgC2O6|1:Ca 1:Mg 2:C 6:O|",
  n!"CaFeC2O6|1:Ca 1:Fe 2:C 6:O|",
  n!"C6H5OH|6:C 6:H 1:O|",
  n!"CH3C6H4(OH)|7:C 8:H 1:O|",
  n!"AlH3SiO4+2|1:Al 3:H 1:Si 4:O|2.0",
  n!"Al(OH)3|1:Al 3:O 3:H|0.0",
  n!"Al(OH)4-|1:Al 4:O 4:H|-1.0",
  n!"Al(OH)2+|1:Al 2:O 2:H|1.0",
  n!"HFeO2-|1:H 1:Fe 2:O|-1.0",
  n!"NaH2AsO4|1:Na 2:H 1:As 4:O|0.0",
  n!"KH2AsO4|1:K 2:H 1:As 4:O|0.0",
  n!"MgH2AsO4+|1:Mg 2:H 1:As 4:O|1.0",
  n!"CaH2AsO4+|1:Ca 2:H 1:As 4:O|1.0",
  n!"SrH2AsO4+|1:Sr 2:H 1:As 4:O|1.0",
  n!"MnH2AsO4+|1:Mn 2:H 1:As 4:O|1.0",
  n!"FeH2AsO4+|1:Fe 2:H 1:As 4:O|1.0",
  n!"CoH2AsO4+|1:Co 2:H 1:As 4:O|1.0",
  n!"NiH2AsO4+|1:Ni 2:H 1:As 4:O|1.0",
  n!"CuH2AsO4+|1:Cu 2:H 1:As 4:O|1.0",
  n!"ZnH2AsO4+|1:Zn 2:H 1:As 4:O|1.0",
  n!"PbH2AsO4+|1:Pb 2:H 1:As 4:O|1.0",
  n!"AlH2AsO4+2|1:Al 2:H 1:As 4:O|2.0",
  n!"FeH2AsO4+2|1:Fe 2:H 1:As 4:O|2.0",
  n!"NaHAsO4-|1:Na 1:H 1:As 4:O|-1.0",
  n!"KHAsO4-|1:K 1:H 1:As 4:O|-1.0",
  n!"MgHAsO4|1:Mg 1:H 1:As 4:O|0.0",
  n!"CaHAsO4|1:Ca 1:H 1:As 4:O|0.0",
  n!"SrHAsO4|1:Sr 1:H 1:As 4:O|0.0",
  n!"MnHAsO4|1:Mn 1:H 1:As 4:O|0.0",
  n!"FeHAsO4|1:Fe 1:H 1:As 4:O|0.0",
  n!"CoHAsO4|1:Co 1:H 1:As 4:O|0.0",
  n!"NiHAsO4|1:Ni 1:H 1:As 4:O|0.0",
  n!"CuHAsO4|1:Cu 1:H 1:As 4:O|0.0",
  n!"ZnHAsO4|1:Zn 1:H 1:As 4:O|0.0",
  n!"PbHAsO4|1:Pb 1:H 1:As 4:O|0.0",
  n!"AlHAsO4+|1:Al 1:H 1:As 4:O|1.0",
  n!"FeHAsO4+|1:Fe 1:H 1:As 4:O|1.0"]

/-- Compositions 2200 to 2248. -/
def good22 : List Nat := [
  n!"NaAsO4-2|1:Na 1:As 4:O|-2.0",
  n!"KAsO4-2|1:K 1:As 4:O|-2.0",
  n!"MgAsO4-|1:Mg 1:As 4:O|-1.0",
  n!"CaAsO4-|1:Ca 1:As 4:O|-1.0",
  n!"SrAsO4-|1:Sr 1:As 4:O|-1.0",
  n!"MnAsO4-|1:Mn 1:As 4:O|-1.0",
  n!"FeAsO4-|1:Fe 1:As 4:O|-1.0",
  n!"CoAsO4-|1:Co 1:As 4:O|-1.0",
  n!"NiAsO4-|1:Ni 1:As 4:O|-1.0",
  n!"CuAsO4-|1:Cu 1:As 4:O|-1.0",
  n!"ZnAsO4-|1:Zn 1:As 4:O|-1.0",
  n!"PbAsO4-|1:Pb 1:As 4:O|-1.0",
  n!"AlAsO4|1:Al 1:As 4:O|0.0",
  n!"FeAsO4|1:Fe 1:As 4:O|0.0",
  n!"NaH2AsO3|1:Na 2:H 1:As 3:O|0.0",
  n!"AgH2AsO3|1:Ag 2:H 1:As 3:O|0.0",
  n!"MgH2AsO3+|1:Mg 2:H 1:As 3:O|1.0",
  n!"CaH2AsO3+|1:Ca 2:H 1:As 3:O|1.0",
  n!"SrH2AsO3+|1:Sr 2:H 1:As 3:O|1.0",
  n!"BaH2AsO3+|1:Ba 2:H 1:As 3:O|1.0",
  n!"CuH2AsO3+|1:Cu 2:H 1:As 3:O|1.0",
  n!"PbH2AsO3+|1:Pb 2:H 1:As 3:O|1.0",
  n!"AlH2AsO3+2|1:Al 2:H 1:As 3:O|2.0",
  n!"FeH2AsO3+2|1:Fe 2:H 1:As 3:O|2.0",
  n!"KAlO2|1:K 1:Al 2:O|0.0",
  n!"NaAl(OH)4|1:Na 1:Al 4:O 4:H|0.0",
  n!"PdSO4|1:Pd 1:S 4:O|0.0",
  n!"PtSO4|1:Pt 1:S 4:O|0.0",
  n!"RhSO4|1:Rh 1:S 4:O|0.0",
  n!"RuSO4|1:Ru 1:S 4:O|0.0",
  n!"HN2O2-|1:H 2:N 2:O|-1.0",
  n!"HAsO3-2|1:H 1:As 3:O|-2.0",
  n!"AsO3-3|1:As 3:O|-3.0",
  n!"As3S4(HS)2-|3:As 6:S 2:H|-1.0",
  n!"EuF2|1:Eu 2:F|0.0",
  n!"LuH2PO4+2|1:Lu 2:H 1:P 4:O|2.0",
  n!"AlF+2|1:Al 1:F|2.0",
  n!"AlF2+|1:Al 2:F|1.0",
  n!"AlF3|1:Al 3:F|0.0",
  n!"AlF4-|1:Al 4:F|-1.0",
  n!"Al(OH)2F2-|1:Al 2:O 2:H 2:F|-1.0",
  n!"Al(OH)2F|1:Al 2:O 2:H 1:F|0.0",
  n!"Al(OH)F2|1:Al 1:O 1:H 2:F|0.0",
  n!"AlSO4+|1:Al 1:S 4:O|1.0",
  n!"NaAl(OH)3F|1:Na 1:Al 3:O 3:H 1:F|0.0",
  n!"NaAl(OH)2F2|1:Na 1:Al 2:O 2:H 2:F|0.0",
  n!"Zn(C2H4NO2)2|1:Zn 4:C 8:H 2:N 4:O|0.0",
  n!"Sr(CH3CH2CH2CO2)2|1:Sr 8:C 14:H 4:O|0.0",
  n!"H4SiO4(0)|1:Si 4:O 4:H|0.0"]

/-- Compositions 2249 to 2279. -/
def odd : List Nat := [
  n!"C|1:C|",
  n!"RhO2|2:Rh 1:O|",
  n!"Na(Ca2Mg5)(AlSi7)O22(OH2)|1:Na 2:Ca 5:Mg 1:Al 7:Si 24:O 2:H|",
  n!"S|1:S|",
  n!"HFe2O-|1:H 1:Fe 2:O|-1.0",
  n!"C4H504-|4:C 5:H 4:O|-1.0",
  n!"C7H1302-|7:C 13:H 2:O|-1.0",
  n!"HSeO3|2:H 1:Se 3:O|0.0",
  n!"HNO2-|1:H 2:N 2:O|-1.0",
  n!"EuF2|1:Eu 1:F|0.0",
  n!"LuH2PO4+2|1:Lu 1:H 1:P 4:O|2.0",
  n!"Zn(C2H4NO2)2|1:Zn 2:C 8:H 2:N 4:O|0.0",
  n!"Na(CH02)2-|1:Na 2:C 2:H 4:O|-1.0",
  n!"Sr(CH3CH2CH2CO2)2|1:Sr 8:C 17:H 4:O|0.0",
  n!"C4H7NO4-|4:C 6:H 4:O 1:N|-1.0",
  n!"C10H14N5O6P|10:C 14:H 5:N 6:O 0:P|0.0",
  n!"C10H14N5O7P|10:C 14:H 5:N 7:O 0:P|0.0",
  n!"C10H13N5O11P2-2|10:C 13:H 3:N 11:O 2:P|-2.0",
  n!"C5H10O6|5:C 10:H 5:O|0.0",
  n!"C5H10O7|5:C 10:H 5:O|0.0",
  n!"C5H10O8|5:C 10:H 5:O|0.0",
  n!"C5H10O9|5:C 10:H 5:O|0.0",
  n!"H|1:H|",
  n!"C4H8N2O3|4:C 8:H 2:N 2:O|",
  n!"KFe3(AlSi3)O10(OH)O-|1:K 3:Fe 1:Al 3:Si 12:O 1:H|",
  n!"H|1:H|0.0",
  n!"C|1:C|0.0",
  n!"C6H5O7-|6:C 5:H 6:O|-1.0",
  n!"C4H4O4-2|4:C 4:H 5:O|-2.0",
  n!"Ca5Si2CO1|5:Ca 2:Si 1:C 11:O|",
  n!"C6H5C5H1|11:C 16:H|0.0"]

/-- The compositions before those in `odd`. -/
def good : List (List Nat) := [good0, good1, good2, good3, good4, good5, good6, good7, good8, good9, good10,
  good11, good12, good13, good14, good15, good16, good17, good18, good19, good20, good21, good22]

end Verif.ShippedData
