import Verif.Model.ShippedData

/-!
# The species of `databases/reaktoro/supcrt07.yaml`

Generated from the file: for each species, in the order of the file, the name, the number of its composition in
`Verif.Model.ShippedCompositions` (the comment is that text), and a text with `AggregateState`, the kind of
`StandardThermoModel` and the names of its parameters whose value is `.nan`.
-/

namespace Verif.ShippedData.Supcrt07

set_option maxRecDepth 100000

/-- `supcrt07.yaml:2-1401`. -/
def part0 : List Row := [
  ⟨n!"Akermanite", 0, n!"Solid|MaierKelley|"⟩,  -- Ca2MgSi2O7|2:Ca 1:Mg 2:Si 7:O|
  ⟨n!"Alabandite", 1, n!"Solid|MaierKelley|"⟩,  -- MnS|1:Mn 1:S|
  ⟨n!"Albite,low", 2, n!"Solid|MaierKelley|"⟩,  -- Na(AlSi3)O8|1:Na 1:Al 3:Si 8:O|
  ⟨n!"Alunite", 3, n!"Solid|MaierKelley|"⟩,  -- KAl3(OH)6(SO4)2|1:K 3:Al 2:S 14:O 6:H|
  ⟨n!"Amesite,7A", 4, n!"Solid|MaierKelley|Gf Hf"⟩,  -- Mg2Al(AlSi)O5(OH)4|2:Mg 2:Al 1:Si 9:O 4:H|
  ⟨n!"Amorphous-Silica", 5, n!"Solid|MaierKelley|"⟩,  -- SiO2|1:Si 2:O|
  ⟨n!"Analcime", 6, n!"Solid|MaierKelley|"⟩,  -- NaAlSi2O6(H2O)|1:Na 1:Al 2:Si 7:O 2:H|
  ⟨n!"Analcime,dehydrated", 7, n!"Solid|MaierKelley|"⟩,  -- NaAlSi2O6|1:Na 1:Al 2:Si 6:O|
  ⟨n!"Andalusite", 8, n!"Solid|MaierKelley|"⟩,  -- Al2SiO5|2:Al 1:Si 5:O|
  ⟨n!"Andradite", 9, n!"Solid|MaierKelley|"⟩,  -- Ca3Fe2Si3O12|3:Ca 2:Fe 3:Si 12:O|
  ⟨n!"Anglesite", 10, n!"Solid|MaierKelley|"⟩,  -- PbSO4|1:Pb 1:S 4:O|
  ⟨n!"Anhydrite", 11, n!"Solid|MaierKelley|"⟩,  -- CaSO4|1:Ca 1:S 4:O|
  ⟨n!"Annite", 12, n!"Solid|MaierKelley|"⟩,  -- KFe3(AlSi3)O10(OH)2|1:K 3:Fe 1:Al 3:Si 12:O 2:H|
  ⟨n!"Anorthite", 13, n!"Solid|MaierKelley|"⟩,  -- Ca(Al2Si2)O8|1:Ca 2:Al 2:Si 8:O|
  ⟨n!"Aragonite", 14, n!"Solid|MaierKelley|"⟩,  -- CaCO3|1:Ca 1:C 3:O|
  ⟨n!"Artinite", 15, n!"Solid|MaierKelley|"⟩,  -- Mg2(OH)2(CO3)(H2O)3|2:Mg 1:C 8:O 8:H|
  ⟨n!"Azurite", 16, n!"Solid|MaierKelley|"⟩,  -- Cu3(OH)2(CO3)2|3:Cu 2:C 8:O 2:H|
  ⟨n!"Barite", 17, n!"Solid|MaierKelley|"⟩,  -- BaSO4|1:Ba 1:S 4:O|
  ⟨n!"Berndtite", 18, n!"Solid|MaierKelley|"⟩,  -- SnS2|1:Sn 2:S|
  ⟨n!"Boehmite", 19, n!"Solid|MaierKelley|"⟩,  -- AlO(OH)|1:Al 2:O 1:H|
  ⟨n!"Bromellite", 20, n!"Solid|MaierKelley|Gf Hf"⟩,  -- BeO|1:Be 1:O|
  ⟨n!"Brucite", 21, n!"Solid|MaierKelley|"⟩,  -- Mg(OH)2|1:Mg 2:O 2:H|
  ⟨n!"Ca-Al-Pyroxene", 22, n!"Solid|MaierKelley|"⟩,  -- CaAl(AlSi)O6|1:Ca 2:Al 1:Si 6:O|
  ⟨n!"Calcite", 14, n!"Solid|MaierKelley|"⟩,  -- CaCO3|1:Ca 1:C 3:O|
  ⟨n!"Cassiterite", 23, n!"Solid|MaierKelley|"⟩,  -- SnO2|1:Sn 2:O|
  ⟨n!"Celadonite", 24, n!"Solid|MaierKelley|Gf Hf"⟩,  -- K(MgAl)Si4O10(OH)2|1:K 1:Mg 1:Al 4:Si 12:O 2:H|
  ⟨n!"Celestite", 25, n!"Solid|MaierKelley|"⟩,  -- SrSO4|1:Sr 1:S 4:O|
  ⟨n!"Cerussite", 26, n!"Solid|MaierKelley|"⟩,  -- PbCO3|1:Pb 1:C 3:O|
  ⟨n!"Chabazite", 27, n!"Solid|MaierKelley|Gf Hf"⟩,  -- Ca(Al2Si4)O12(H2O)6|1:Ca 2:Al 4:Si 18:O 12:H|
  ⟨n!"Chalcedony", 5, n!"Solid|MaierKelley|"⟩,  -- SiO2|1:Si 2:O|
  ⟨n!"Chlorargyrite", 28, n!"Solid|MaierKelley|"⟩,  -- AgCl|1:Ag 1:Cl|
  ⟨n!"Chloritoid", 29, n!"Solid|MaierKelley|Gf Hf"⟩,  -- FeAl2SiO5(OH)2|1:Fe 2:Al 1:Si 7:O 2:H|
  ⟨n!"Chrysotile", 30, n!"Solid|MaierKelley|"⟩,  -- Mg3Si2O5(OH)4|3:Mg 2:Si 9:O 4:H|
  ⟨n!"Cinnabar", 31, n!"Solid|MaierKelley|"⟩,  -- HgS|1:Hg 1:S|
  ⟨n!"Clinochlore,14A", 32, n!"Solid|MaierKelley|"⟩,  -- Mg5Al(AlSi3)O10(OH)8|5:Mg 2:Al 3:Si 18:O 8:H|
  ⟨n!"Clinozoisite", 33, n!"Solid|MaierKelley|"⟩,  -- Ca2Al3Si3O12(OH)|2:Ca 3:Al 3:Si 13:O 1:H|
  ⟨n!"Copper", 34, n!"Solid|MaierKelley|"⟩,  -- Cu|1:Cu|
  ⟨n!"Cordierite", 35, n!"Solid|MaierKelley|"⟩,  -- Mg2Al3(AlSi5)O18|2:Mg 4:Al 5:Si 18:O|
  ⟨n!"Cordierite,hydrous", 36, n!"Solid|MaierKelley|"⟩,  -- Mg2Al3(AlSi5)O18(H2O)|2:Mg 4:Al 5:Si 19:O 2:H|
  ⟨n!"Corundum", 37, n!"Solid|MaierKelley|"⟩,  -- Al2O3|2:Al 3:O|
  ⟨n!"Covellite", 38, n!"Solid|MaierKelley|"⟩,  -- CuS|1:Cu 1:S|
  ⟨n!"Cristobalite,alpha", 5, n!"Solid|MaierKelley|"⟩,  -- SiO2|1:Si 2:O|
  ⟨n!"Cristobalite,beta", 5, n!"Solid|MaierKelley|"⟩,  -- SiO2|1:Si 2:O|
  ⟨n!"Cummingtonite", 39, n!"Solid|MaierKelley|Gf Hf"⟩,  -- Mg7Si8O22(OH)2|7:Mg 8:Si 24:O 2:H|
  ⟨n!"Cuprite", 40, n!"Solid|MaierKelley|"⟩,  -- Cu2O|2:Cu 1:O|
  ⟨n!"Daphnite,14A", 41, n!"Solid|MaierKelley|"⟩,  -- Fe5Al(AlSi3)O10(OH)8|5:Fe 2:Al 3:Si 18:O 8:H|
  ⟨n!"Diaspore", 19, n!"Solid|MaierKelley|"⟩,  -- AlO(OH)|1:Al 2:O 1:H|
  ⟨n!"Dickite", 42, n!"Solid|MaierKelley|Gf Hf"⟩,  -- Al2Si2O5(OH)4|2:Al 2:Si 9:O 4:H|
  ⟨n!"Diopside", 43, n!"Solid|MaierKelley|"⟩,  -- CaMg(SiO3)2|1:Ca 1:Mg 2:Si 6:O|
  ⟨n!"Dolomite", 44, n!"Solid|MaierKelley|"⟩,  -- CaMg(CO3)2|1:Ca 1:Mg 2:C 6:O|
  ⟨n!"Dolomite,disordered", 44, n!"Solid|MaierKelley|"⟩,  -- CaMg(CO3)2|1:Ca 1:Mg 2:C 6:O|
  ⟨n!"Dolomite,ordered", 44, n!"Solid|MaierKelley|"⟩,  -- CaMg(CO3)2|1:Ca 1:Mg 2:C 6:O|
  ⟨n!"Epidote", 45, n!"Solid|MaierKelley|"⟩,  -- Ca2FeAl2Si3O12(OH)|2:Ca 1:Fe 2:Al 3:Si 13:O 1:H|
  ⟨n!"Epidote,ordered", 45, n!"Solid|MaierKelley|"⟩,  -- Ca2FeAl2Si3O12(OH)|2:Ca 1:Fe 2:Al 3:Si 13:O 1:H|
  ⟨n!"Fayalite", 46, n!"Solid|MaierKelley|"⟩,  -- Fe2SiO4|2:Fe 1:Si 4:O|
  ⟨n!"Ferropargasite", 47, n!"Solid|MaierKelley|"⟩,  -- Na(Ca2Fe4Al)(Al2Si6)O22(OH)2|1:Na 2:Ca 4:Fe 3:Al 6:Si 24:O 2:H|
  ⟨n!"Ferrotremolite", 48, n!"Solid|MaierKelley|"⟩,  -- (Ca2Fe5)Si8O22(OH)2|2:Ca 5:Fe 8:Si 24:O 2:H|
  ⟨n!"Ferrous-Oxide", 49, n!"Solid|MaierKelley|"⟩,  -- FeO|1:Fe 1:O|
  ⟨n!"Fluorite", 50, n!"Solid|MaierKelley|"⟩,  -- CaF2|1:Ca 2:F|
  ⟨n!"Fluorphlogopite", 51, n!"Solid|MaierKelley|Gf Hf"⟩,  -- KMg3(AlSi3)O10(F)2|1:K 3:Mg 1:Al 3:Si 10:O 2:F|
  ⟨n!"Fluortremolite", 52, n!"Solid|MaierKelley|Gf Hf"⟩,  -- (Ca2Mg5)Si8O22(F)2|2:Ca 5:Mg 8:Si 22:O 2:F|
  ⟨n!"Forsterite", 53, n!"Solid|MaierKelley|"⟩,  -- Mg2SiO4|2:Mg 1:Si 4:O|
  ⟨n!"Galena", 54, n!"Solid|MaierKelley|"⟩,  -- PbS|1:Pb 1:S|
  ⟨n!"Gehlenite", 55, n!"Solid|MaierKelley|"⟩,  -- Ca2(Al2Si)O7|2:Ca 2:Al 1:Si 7:O|
  ⟨n!"Gibbsite", 56, n!"Solid|MaierKelley|"⟩,  -- Al(OH)3|1:Al 3:O 3:H|
  ⟨n!"Glaucophane", 57, n!"Solid|MaierKelley|Gf Hf"⟩,  -- Na2(Mg3Al2)Si8O22(OH)2|2:Na 3:Mg 2:Al 8:Si 24:O 2:H|
  ⟨n!"Goethite", 1494, n!"Solid|MaierKelley|"⟩,  -- FeOOH|1:Fe 2:O 1:H|
  ⟨n!"Gold", 58, n!"Solid|MaierKelley|"⟩,  -- Au|1:Au|
  ⟨n!"Graphite", 2249, n!"Solid|MaierKelley|"⟩,  -- C|1:C|
  ⟨n!"Greenalite", 59, n!"Solid|MaierKelley|"⟩,  -- Fe3Si2O5(OH)4|3:Fe 2:Si 9:O 4:H|
  ⟨n!"Grossular", 60, n!"Solid|MaierKelley|"⟩,  -- Ca3Al2Si3O12|3:Ca 2:Al 3:Si 12:O|
  ⟨n!"Grunerite", 61, n!"Solid|MaierKelley|Gf Hf"⟩,  -- Fe7Si8O22(OH)2|7:Fe 8:Si 24:O 2:H|
  ⟨n!"Halite", 62, n!"Solid|MaierKelley|"⟩,  -- NaCl|1:Na 1:Cl|
  ⟨n!"Halloysite", 42, n!"Solid|MaierKelley|Gf Hf"⟩,  -- Al2Si2O5(OH)4|2:Al 2:Si 9:O 4:H|
  ⟨n!"Hedenbergite", 63, n!"Solid|MaierKelley|"⟩,  -- CaFe(SiO3)2|1:Ca 1:Fe 2:Si 6:O|
  ⟨n!"Huntite", 64, n!"Solid|MaierKelley|"⟩,  -- CaMg3(CO3)4|1:Ca 3:Mg 4:C 12:O|
  ⟨n!"Hydromagnesite", 65, n!"Solid|MaierKelley|"⟩,  -- Mg5(OH)2(CO3)4(H2O)4|5:Mg 4:C 18:O 10:H|
  ⟨n!"Jadeite", 66, n!"Solid|MaierKelley|"⟩,  -- NaAl(SiO3)2|1:Na 1:Al 2:Si 6:O|
  ⟨n!"K-Feldspar", 67, n!"Solid|MaierKelley|"⟩,  -- K(AlSi3)O8|1:K 1:Al 3:Si 8:O|
  ⟨n!"Kaolinite", 42, n!"Solid|MaierKelley|"⟩,  -- Al2Si2O5(OH)4|2:Al 2:Si 9:O 4:H|
  ⟨n!"Kyanite", 8, n!"Solid|MaierKelley|"⟩,  -- Al2SiO5|2:Al 1:Si 5:O|
  ⟨n!"Laurite", 68, n!"Solid|MaierKelley|"⟩,  -- RuS2|1:Ru 2:S|
  ⟨n!"Laumontite", 69, n!"Solid|MaierKelley|"⟩,  -- Ca(Al2Si4)O12(H2O)4|1:Ca 2:Al 4:Si 16:O 8:H|
  ⟨n!"Leonhardite", 70, n!"Solid|MaierKelley|Gf Hf"⟩,  -- Ca2(Al4Si8)O24(H2O)7|2:Ca 4:Al 8:Si 31:O 14:H|
  ⟨n!"Lime", 71, n!"Solid|MaierKelley|"⟩,  -- CaO|1:Ca 1:O|
  ⟨n!"Litharge", 122, n!"Solid|MaierKelley|"⟩,  -- PbO|1:Pb 1:O|
  ⟨n!"Magnesite", 72, n!"Solid|MaierKelley|"⟩,  -- MgCO3|1:Mg 1:C 3:O|
  ⟨n!"Malachite", 73, n!"Solid|MaierKelley|"⟩,  -- Cu2(OH)2(CO3)|2:Cu 1:C 5:O 2:H|
  ⟨n!"Manganosite", 74, n!"Solid|MaierKelley|"⟩,  -- MnO|1:Mn 1:O|
  ⟨n!"Merwinite", 75, n!"Solid|MaierKelley|"⟩,  -- Ca3Mg(SiO4)2|3:Ca 1:Mg 2:Si 8:O|
  ⟨n!"Metacinnabar", 31, n!"Solid|MaierKelley|"⟩,  -- HgS|1:Hg 1:S|
  ⟨n!"Microcline", 67, n!"Solid|MaierKelley|"⟩,  -- K(AlSi3)O8|1:K 1:Al 3:Si 8:O|
  ⟨n!"Minnesotaite", 76, n!"Solid|MaierKelley|Gf Hf"⟩,  -- Fe3Si4O10(OH)2|3:Fe 4:Si 12:O 2:H|
  ⟨n!"Molybdenite", 1495, n!"Solid|MaierKelley|"⟩,  -- MoS2|1:Mo 2:S|
  ⟨n!"Monticellite", 77, n!"Solid|MaierKelley|"⟩,  -- CaMgSiO4|1:Ca 1:Mg 1:Si 4:O|
  ⟨n!"Muscovite", 78, n!"Solid|MaierKelley|"⟩,  -- KAl2(AlSi3)O10(OH)2|1:K 3:Al 3:Si 12:O 2:H|
  ⟨n!"Nepheline", 79, n!"Solid|MaierKelley|"⟩,  -- Na(AlSi)O4|1:Na 1:Al 1:Si 4:O|
  ⟨n!"Palladium", 80, n!"Solid|MaierKelley|"⟩,  -- Pd|1:Pd|
  ⟨n!"Paragonite", 81, n!"Solid|MaierKelley|"⟩,  -- NaAl2(AlSi3)O10(OH)2|1:Na 3:Al 3:Si 12:O 2:H|
  ⟨n!"Pargasite", 82, n!"Solid|MaierKelley|"⟩]  -- Na(Ca2Mg4Al)(Al2Si6)O22(OH)2|1:Na 2:Ca 4:Mg 3:Al 6:Si 24:O 2:H|

/-- `supcrt07.yaml:1402-3066`. -/
def part1 : List Row := [
  ⟨n!"Periclase", 83, n!"Solid|MaierKelley|"⟩,  -- MgO|1:Mg 1:O|
  ⟨n!"Phlogopite", 84, n!"Solid|MaierKelley|"⟩,  -- KMg3(AlSi3)O10(OH)2|1:K 3:Mg 1:Al 3:Si 12:O 2:H|
  ⟨n!"Platinum", 85, n!"Solid|MaierKelley|"⟩,  -- Pt|1:Pt|
  ⟨n!"Potassium-Oxide", 86, n!"Solid|MaierKelley|"⟩,  -- K2O|2:K 1:O|
  ⟨n!"Pyrite", 87, n!"Solid|MaierKelley|"⟩,  -- FeS2|1:Fe 2:S|
  ⟨n!"Pyrophyllite", 88, n!"Solid|MaierKelley|"⟩,  -- Al2Si4O10(OH)2|2:Al 4:Si 12:O 2:H|
  ⟨n!"Pd(OH)2", 89, n!"Solid|MaierKelley|"⟩,  -- Pd(OH)2|1:Pd 2:O 2:H|
  ⟨n!"Pd4S", 90, n!"Solid|MaierKelley|"⟩,  -- Pd4S|4:Pd 1:S|
  ⟨n!"PdO", 91, n!"Solid|MaierKelley|"⟩,  -- PdO|1:Pd 1:O|
  ⟨n!"Vysotskite", 92, n!"Solid|MaierKelley|"⟩,  -- PdS|1:Pd 1:S|
  ⟨n!"Cooperite", 93, n!"Solid|MaierKelley|"⟩,  -- PtS|1:Pt 1:S|
  ⟨n!"PtS2", 94, n!"Solid|MaierKelley|"⟩,  -- PtS2|1:Pt 2:S|
  ⟨n!"Rhodium", 95, n!"Solid|MaierKelley|"⟩,  -- Rh|1:Rh|
  ⟨n!"Rhodochrosite", 96, n!"Solid|MaierKelley|"⟩,  -- MnCO3|1:Mn 1:C 3:O|
  ⟨n!"Richterite", 97, n!"Solid|MaierKelley|Gf Hf"⟩,  -- Na2(CaMg5)Si8O22(OH)2|2:Na 1:Ca 5:Mg 8:Si 24:O 2:H|
  ⟨n!"Romarchite", 98, n!"Solid|MaierKelley|"⟩,  -- SnO|1:Sn 1:O|
  ⟨n!"Ruthenium", 99, n!"Solid|MaierKelley|"⟩,  -- Ru|1:Ru|
  ⟨n!"Rutile", 100, n!"Solid|MaierKelley|"⟩,  -- TiO2|1:Ti 2:O|
  ⟨n!"Rh2O", 2250, n!"Solid|MaierKelley|"⟩,  -- RhO2|2:Rh 1:O|
  ⟨n!"Rh2O3", 101, n!"Solid|MaierKelley|"⟩,  -- Rh2O3|2:Rh 3:O|
  ⟨n!"RuO2", 102, n!"Solid|MaierKelley|"⟩,  -- RuO2|1:Ru 2:O|
  ⟨n!"Sanidine", 67, n!"Solid|MaierKelley|"⟩,  -- K(AlSi3)O8|1:K 1:Al 3:Si 8:O|
  ⟨n!"Sepiolite", 103, n!"Solid|MaierKelley|"⟩,  -- Mg4Si6O15(OH)2(H2O)2(H2O)4|4:Mg 6:Si 23:O 14:H|
  ⟨n!"Siderite", 104, n!"Solid|MaierKelley|"⟩,  -- FeCO3|1:Fe 1:C 3:O|
  ⟨n!"Sillimanite", 8, n!"Solid|MaierKelley|"⟩,  -- Al2SiO5|2:Al 1:Si 5:O|
  ⟨n!"Silver", 105, n!"Solid|MaierKelley|"⟩,  -- Ag|1:Ag|
  ⟨n!"Smithsonite", 106, n!"Solid|MaierKelley|"⟩,  -- ZnCO3|1:Zn 1:C 3:O|
  ⟨n!"Sodium-Oxide", 107, n!"Solid|MaierKelley|"⟩,  -- Na2O|2:Na 1:O|
  ⟨n!"Sphalerite", 108, n!"Solid|MaierKelley|"⟩,  -- ZnS|1:Zn 1:S|
  ⟨n!"Spinel", 109, n!"Solid|MaierKelley|"⟩,  -- MgAl2O4|1:Mg 2:Al 4:O|
  ⟨n!"Staurolite", 110, n!"Solid|MaierKelley|Gf Hf"⟩,  -- Fe2Al9Si4O23(OH)|2:Fe 9:Al 4:Si 24:O 1:H|
  ⟨n!"Strontianite", 111, n!"Solid|MaierKelley|"⟩,  -- SrCO3|1:Sr 1:C 3:O|
  ⟨n!"Sylvite", 112, n!"Solid|MaierKelley|"⟩,  -- KCl|1:K 1:Cl|
  ⟨n!"Talc", 113, n!"Solid|MaierKelley|"⟩,  -- Mg3Si4O10(OH)2|3:Mg 4:Si 12:O 2:H|
  ⟨n!"Tenorite", 114, n!"Solid|MaierKelley|"⟩,  -- CuO|1:Cu 1:O|
  ⟨n!"Titanite", 115, n!"Solid|MaierKelley|"⟩,  -- CaTiSiO5|1:Ca 1:Ti 1:Si 5:O|
  ⟨n!"Tremolite", 116, n!"Solid|MaierKelley|"⟩,  -- (Ca2Mg5)Si8O22(OH)2|2:Ca 5:Mg 8:Si 24:O 2:H|
  ⟨n!"Uraninite", 117, n!"Solid|MaierKelley|"⟩,  -- UO2|1:U 2:O|
  ⟨n!"PdS2", 118, n!"Solid|MaierKelley|"⟩,  -- PdS2|1:Pd 2:S|
  ⟨n!"Wairakite", 119, n!"Solid|MaierKelley|"⟩,  -- Ca(Al2Si4)O12(H2O)2|1:Ca 2:Al 4:Si 14:O 4:H|
  ⟨n!"Wollastonite", 120, n!"Solid|MaierKelley|"⟩,  -- CaSiO3|1:Ca 1:Si 3:O|
  ⟨n!"Wurtzite", 108, n!"Solid|MaierKelley|"⟩,  -- ZnS|1:Zn 1:S|
  ⟨n!"Zincite", 121, n!"Solid|MaierKelley|"⟩,  -- ZnO|1:Zn 1:O|
  ⟨n!"Zoisite", 33, n!"Solid|MaierKelley|"⟩,  -- Ca2Al3Si3O12(OH)|2:Ca 3:Al 3:Si 13:O 1:H|
  ⟨n!"Albite", 2, n!"Solid|MineralHKF|Htr Vtr dPdTtr"⟩,  -- Na(AlSi3)O8|1:Na 1:Al 3:Si 8:O|
  ⟨n!"Albite,high", 123, n!"Solid|MineralHKF|Htr Vtr dPdTtr"⟩,  -- NaAlSi3O8|1:Na 1:Al 3:Si 8:O|
  ⟨n!"Almandine", 124, n!"Solid|MineralHKF|Gf Hf Htr Vtr dPdTtr"⟩,  -- Fe3Al2Si3O12|3:Fe 2:Al 3:Si 12:O|
  ⟨n!"Amesite,14A", 125, n!"Solid|MineralHKF|Gf Hf Htr Vtr dPdTtr"⟩,  -- Mg4Al2(Al2Si2)O10(OH)8|4:Mg 4:Al 2:Si 18:O 8:H|
  ⟨n!"Antigorite", 126, n!"Solid|MineralHKF|Htr Vtr dPdTtr"⟩,  -- Mg48Si34O85(OH)62|48:Mg 34:Si 147:O 62:H|
  ⟨n!"Clinochlore,7A", 32, n!"Solid|MineralHKF|Htr Vtr dPdTtr"⟩,  -- Mg5Al(AlSi3)O10(OH)8|5:Mg 2:Al 3:Si 18:O 8:H|
  ⟨n!"Coesite", 5, n!"Solid|MineralHKF|Htr Vtr dPdTtr"⟩,  -- SiO2|1:Si 2:O|
  ⟨n!"Cristobalite", 5, n!"Solid|MineralHKF|Vtr dPdTtr"⟩,  -- SiO2|1:Si 2:O|
  ⟨n!"Daphnite,7A", 41, n!"Solid|MineralHKF|Gf Hf Htr Vtr dPdTtr"⟩,  -- Fe5Al(AlSi3)O10(OH)8|5:Fe 2:Al 3:Si 18:O 8:H|
  ⟨n!"Edenite", 2251, n!"Solid|MineralHKF|Gf Hf Htr Vtr dPdTtr"⟩,  -- Na(Ca2Mg5)(AlSi7)O22(OH2)|1:Na 2:Ca 5:Mg 1:Al 7:Si 24:O 2:H|
  ⟨n!"Epistilbite", 127, n!"Solid|MineralHKF|Gf Hf Htr Vtr dPdTtr"⟩,  -- Ca(Al2Si6)O16(H2O)5|1:Ca 2:Al 6:Si 21:O 10:H|
  ⟨n!"Ferroedenite", 128, n!"Solid|MineralHKF|Gf Hf Htr Vtr dPdTtr"⟩,  -- Na(Ca2Fe5)(AlSi7)O22(OH)2|1:Na 2:Ca 5:Fe 1:Al 7:Si 24:O 2:H|
  ⟨n!"Ferrosilite", 129, n!"Solid|MineralHKF|"⟩,  -- FeSiO3|1:Fe 1:Si 3:O|
  ⟨n!"Fluoredenite", 130, n!"Solid|MineralHKF|Gf Hf Htr Vtr dPdTtr"⟩,  -- Na(Ca2Mg5)(AlSi7)O22(F)2|1:Na 2:Ca 5:Mg 1:Al 7:Si 22:O 2:F|
  ⟨n!"Heulandite", 131, n!"Solid|MineralHKF|Gf Hf Htr Vtr dPdTtr"⟩,  -- Ca(Al2Si7)O18(H2O)6|1:Ca 2:Al 7:Si 24:O 12:H|
  ⟨n!"Kalsilite", 132, n!"Solid|MineralHKF|Vtr dPdTtr"⟩,  -- K(AlSi)O4|1:K 1:Al 1:Si 4:O|
  ⟨n!"Lawsonite", 133, n!"Solid|MineralHKF|Htr Vtr dPdTtr"⟩,  -- CaAl2Si2O7(OH)2(H2O)|1:Ca 2:Al 2:Si 10:O 4:H|
  ⟨n!"Magnetite", 134, n!"Solid|MineralHKF|Htr Vtr dPdTtr"⟩,  -- Fe3O4|3:Fe 4:O|
  ⟨n!"Margarite", 135, n!"Solid|MineralHKF|Htr Vtr dPdTtr"⟩,  -- CaAl2(Al2Si2)O10(OH)2|1:Ca 4:Al 2:Si 12:O 2:H|
  ⟨n!"Natrolite", 136, n!"Solid|MineralHKF|Gf Hf Htr Vtr dPdTtr"⟩,  -- Na2(Al2Si3)O10(H2O)2|2:Na 2:Al 3:Si 12:O 4:H|
  ⟨n!"Nesquehonite", 137, n!"Solid|MineralHKF|Vtr dPdTtr"⟩,  -- MgCO3(H2O)3|1:Mg 1:C 6:O 6:H|
  ⟨n!"Nickel", 138, n!"Solid|MineralHKF|Vtr dPdTtr"⟩,  -- Ni|1:Ni|
  ⟨n!"Phillipsite,Ca", 139, n!"Solid|MineralHKF|Gf Hf Htr Vtr dPdTtr"⟩,  -- Ca(Al2Si5)O14(H2O)5|1:Ca 2:Al 5:Si 19:O 10:H|
  ⟨n!"Phillipsite,K", 140, n!"Solid|MineralHKF|Gf Hf Htr Vtr dPdTtr"⟩,  -- K2(Al2Si5)O14(H2O)5|2:K 2:Al 5:Si 19:O 10:H|
  ⟨n!"Phillipsite,Na", 141, n!"Solid|MineralHKF|Gf Hf Htr Vtr dPdTtr"⟩,  -- Na2(Al2Si5)O14(H2O)5|2:Na 2:Al 5:Si 19:O 10:H|
  ⟨n!"Prehnite", 142, n!"Solid|MineralHKF|Htr Vtr dPdTtr"⟩,  -- Ca2Al2Si3O10(OH)2|2:Ca 2:Al 3:Si 12:O 2:H|
  ⟨n!"Pyrope", 143, n!"Solid|MineralHKF|Gf Hf Htr Vtr dPdTtr"⟩,  -- Mg3Al2Si3O12|3:Mg 2:Al 3:Si 12:O|
  ⟨n!"Quartz", 5, n!"Solid|MineralHKF|"⟩,  -- SiO2|1:Si 2:O|
  ⟨n!"Quicksilver", 144, n!"Solid|MineralHKF|Vtr dPdTtr"⟩,  -- Hg|1:Hg|
  ⟨n!"Selenium", 1496, n!"Solid|MineralHKF|Vtr dPdTtr"⟩,  -- Se|1:Se|
  ⟨n!"Spessartine", 145, n!"Solid|MineralHKF|Gf Hf Htr Vtr dPdTtr"⟩,  -- Mn3Al2Si3O12|3:Mn 2:Al 3:Si 12:O|
  ⟨n!"Stilbite", 146, n!"Solid|MineralHKF|Gf Hf Htr Vtr dPdTtr"⟩,  -- NaCa2(Al5Si13)O36(H2O)14|1:Na 2:Ca 5:Al 13:Si 50:O 28:H|
  ⟨n!"Tin", 147, n!"Solid|MineralHKF|Vtr dPdTtr"⟩,  -- Sn|1:Sn|
  ⟨n!"Acanthite", 148, n!"Solid|MineralHKF|Vtr dPdTtr"⟩,  -- Ag2S|2:Ag 1:S|
  ⟨n!"Aegerine", 149, n!"Solid|MineralHKF|Gf Hf Htr Vtr dPdTtr"⟩,  -- NaFe(SiO3)2|1:Na 1:Fe 2:Si 6:O|
  ⟨n!"Anthophyllite", 39, n!"Solid|MineralHKF|Htr Vtr dPdTtr"⟩,  -- Mg7Si8O22(OH)2|7:Mg 8:Si 24:O 2:H|
  ⟨n!"Bornite", 150, n!"Solid|MineralHKF|Vtr dPdTtr"⟩,  -- Cu5FeS4|5:Cu 1:Fe 4:S|
  ⟨n!"Bunsenite", 151, n!"Solid|MineralHKF|Vtr dPdTtr"⟩,  -- NiO|1:Ni 1:O|
  ⟨n!"Chalcocite", 152, n!"Solid|MineralHKF|Vtr dPdTtr"⟩,  -- Cu2S|2:Cu 1:S|
  ⟨n!"Chalcopyrite", 153, n!"Solid|MineralHKF|Vtr dPdTtr"⟩,  -- CuFeS2|1:Cu 1:Fe 2:S|
  ⟨n!"Cronstedtite,7A", 154, n!"Solid|MineralHKF|Gf Hf Htr Vtr dPdTtr"⟩,  -- Fe2Fe(FeSi)O5(OH)4|4:Fe 1:Si 9:O 4:H|
  ⟨n!"Enstatite", 155, n!"Solid|MineralHKF|"⟩,  -- MgSiO3|1:Mg 1:Si 3:O|
  ⟨n!"Ferrogedrite", 156, n!"Solid|MineralHKF|Gf Hf Htr Vtr dPdTtr"⟩,  -- (Fe5Al2)(Al2Si6)O22(OH)2|5:Fe 4:Al 6:Si 24:O 2:H|
  ⟨n!"Hastingsite", 157, n!"Solid|MineralHKF|Gf Hf Htr Vtr dPdTtr"⟩,  -- Na(Ca2Fe4Fe)(Al2Si6)O22(OH)2|1:Na 2:Ca 5:Fe 2:Al 6:Si 24:O 2:H|
  ⟨n!"Hematite", 158, n!"Solid|MineralHKF|Vtr dPdTtr"⟩,  -- Fe2O3|2:Fe 3:O|
  ⟨n!"Larnite", 159, n!"Solid|MineralHKF|Gf Hf Vtr dPdTtr"⟩,  -- Ca2SiO4|2:Ca 1:Si 4:O|
  ⟨n!"Magnesiohastingsite", 160, n!"Solid|MineralHKF|Gf Hf Htr Vtr dPdTtr"⟩,  -- Na(Ca2Mg4Fe)(Al2Si6)O22(OH)2|1:Na 2:Ca 4:Mg 1:Fe 2:Al 6:Si 24:O 2:H|
  ⟨n!"Magnesioriebeckite", 161, n!"Solid|MineralHKF|Gf Hf Htr Vtr dPdTtr"⟩,  -- Na2(Mg3Fe2)Si8O22(OH)2|2:Na 3:Mg 2:Fe 8:Si 24:O 2:H|
  ⟨n!"Pyrrhotite", 162, n!"Solid|MineralHKF|Vtr dPdTtr"⟩,  -- FeS|1:Fe 1:S|
  ⟨n!"Riebeckite", 163, n!"Solid|MineralHKF|Gf Hf Htr Vtr dPdTtr"⟩,  -- Na2(Fe3Fe2)Si8O22(OH)2|2:Na 5:Fe 8:Si 24:O 2:H|
  ⟨n!"Sulfur", 2252, n!"Solid|MineralHKF|Vtr dPdTtr"⟩,  -- S|1:S|
  ⟨n!"Iron", 1497, n!"Solid|MineralHKF|Vtr dPdTtr"⟩,  -- Fe|1:Fe|
  ⟨n!"Pd-Oxyannite", 164, n!"Solid|MineralHKF|Gf Hf Htr Vtr dPdTtr"⟩,  -- KFe3(AlSi3)O10(OH)O|1:K 3:Fe 1:Al 3:Si 12:O 1:H|
  ⟨n!"Ar(g)", 165, n!"Gas|MaierKelley|"⟩,  -- Ar|1:Ar|
  ⟨n!"CH4(g)", 166, n!"Gas|MaierKelley|"⟩,  -- CH4|1:C 4:H|
  ⟨n!"C6H6O(g)", 167, n!"Gas|MaierKelley|"⟩]  -- C6H6O|6:C 6:H 1:O|

/-- `supcrt07.yaml:3067-4833`. -/
def part2 : List Row := [
  ⟨n!"o-Cresol(g)", 168, n!"Gas|MaierKelley|"⟩,  -- C7H8O|7:C 8:H 1:O|
  ⟨n!"m-Cresol(g)", 168, n!"Gas|MaierKelley|"⟩,  -- C7H8O|7:C 8:H 1:O|
  ⟨n!"p-Cresol(g)", 168, n!"Gas|MaierKelley|"⟩,  -- C7H8O|7:C 8:H 1:O|
  ⟨n!"CO(g)", 169, n!"Gas|MaierKelley|"⟩,  -- CO|1:C 1:O|
  ⟨n!"CO2(g)", 170, n!"Gas|MaierKelley|"⟩,  -- CO2|1:C 2:O|
  ⟨n!"C2H4(g)", 171, n!"Gas|MaierKelley|"⟩,  -- C2H4|2:C 4:H|
  ⟨n!"H2(g)", 172, n!"Gas|MaierKelley|"⟩,  -- H2|2:H|
  ⟨n!"H2O(g)", 173, n!"Gas|MaierKelley|"⟩,  -- H2O|2:H 1:O|
  ⟨n!"H2S(g)", 174, n!"Gas|MaierKelley|"⟩,  -- H2S|2:H 1:S|
  ⟨n!"He(g)", 175, n!"Gas|MaierKelley|"⟩,  -- He|1:He|
  ⟨n!"Kr(g)", 176, n!"Gas|MaierKelley|"⟩,  -- Kr|1:Kr|
  ⟨n!"N2(g)", 177, n!"Gas|MaierKelley|"⟩,  -- N2|2:N|
  ⟨n!"Ne(g)", 178, n!"Gas|MaierKelley|"⟩,  -- Ne|1:Ne|
  ⟨n!"NH3(g)", 179, n!"Gas|MaierKelley|"⟩,  -- NH3|1:N 3:H|
  ⟨n!"O2(g)", 180, n!"Gas|MaierKelley|"⟩,  -- O2|2:O|
  ⟨n!"Rn(g)", 181, n!"Gas|MaierKelley|"⟩,  -- Rn|1:Rn|
  ⟨n!"S2(g)", 182, n!"Gas|MaierKelley|"⟩,  -- S2|2:S|
  ⟨n!"SO2(g)", 183, n!"Gas|MaierKelley|"⟩,  -- SO2|1:S 2:O|
  ⟨n!"Xe(g)", 184, n!"Gas|MaierKelley|"⟩,  -- Xe|1:Xe|
  ⟨n!"NO(g)", 1498, n!"Gas|MaierKelley|"⟩,  -- NO|1:N 1:O|
  ⟨n!"N2O(g)", 1499, n!"Gas|MaierKelley|"⟩,  -- N2O|2:N 1:O|
  ⟨n!"H2O(aq)", 185, n!"Aqueous|WaterHKF|"⟩,  -- H2O|2:H 1:O|0.0
  ⟨n!"1-Butanamine(aq)", 186, n!"Aqueous|HKF|"⟩,  -- C4H9NH2|4:C 11:H 1:N|0.0
  ⟨n!"1-Butanol(aq)", 187, n!"Aqueous|HKF|"⟩,  -- C4H9OH|4:C 10:H 1:O|0.0
  ⟨n!"1-Butene(aq)", 188, n!"Aqueous|HKF|"⟩,  -- C4H8|4:C 8:H|0.0
  ⟨n!"1-Butyne(aq)", 189, n!"Aqueous|HKF|"⟩,  -- C4H6|4:C 6:H|0.0
  ⟨n!"1-Heptanamine(aq)", 190, n!"Aqueous|HKF|"⟩,  -- C7H15NH2|7:C 17:H 1:N|0.0
  ⟨n!"1-Heptanol(aq)", 191, n!"Aqueous|HKF|"⟩,  -- C7H15OH|7:C 16:H 1:O|0.0
  ⟨n!"1-Heptene(aq)", 192, n!"Aqueous|HKF|"⟩,  -- C7H14|7:C 14:H|0.0
  ⟨n!"1-Heptyne(aq)", 193, n!"Aqueous|HKF|"⟩,  -- C7H12|7:C 12:H|0.0
  ⟨n!"1-Hexanamine(aq)", 194, n!"Aqueous|HKF|"⟩,  -- C6H13NH2|6:C 15:H 1:N|0.0
  ⟨n!"1-Hexanol(aq)", 195, n!"Aqueous|HKF|"⟩,  -- C6H13OH|6:C 14:H 1:O|0.0
  ⟨n!"1-Hexene(aq)", 196, n!"Aqueous|HKF|"⟩,  -- C6H12|6:C 12:H|0.0
  ⟨n!"1-Hexyne(aq)", 197, n!"Aqueous|HKF|"⟩,  -- C6H10|6:C 10:H|0.0
  ⟨n!"1-Octanamine(aq)", 198, n!"Aqueous|HKF|"⟩,  -- C8H17NH2|8:C 19:H 1:N|0.0
  ⟨n!"1-Octanol(aq)", 199, n!"Aqueous|HKF|"⟩,  -- C8H17OH|8:C 18:H 1:O|0.0
  ⟨n!"1-Octene(aq)", 200, n!"Aqueous|HKF|"⟩,  -- C8H16|8:C 16:H|0.0
  ⟨n!"1-Octyne(aq)", 201, n!"Aqueous|HKF|"⟩,  -- C8H14|8:C 14:H|0.0
  ⟨n!"1-Pentanamine(aq)", 202, n!"Aqueous|HKF|"⟩,  -- C5H11NH2|5:C 13:H 1:N|0.0
  ⟨n!"1-Pentanol(aq)", 203, n!"Aqueous|HKF|"⟩,  -- C5H11OH|5:C 12:H 1:O|0.0
  ⟨n!"1-Pentene(aq)", 204, n!"Aqueous|HKF|"⟩,  -- C5H10|5:C 10:H|0.0
  ⟨n!"1-Pentyne(aq)", 205, n!"Aqueous|HKF|"⟩,  -- C5H8|5:C 8:H|0.0
  ⟨n!"1-Propanamine(aq)", 206, n!"Aqueous|HKF|"⟩,  -- C3H7NH2|3:C 9:H 1:N|0.0
  ⟨n!"1-Propanol(aq)", 207, n!"Aqueous|HKF|"⟩,  -- C3H7OH|3:C 8:H 1:O|0.0
  ⟨n!"1-Propene(aq)", 208, n!"Aqueous|HKF|"⟩,  -- C3H6|3:C 6:H|0.0
  ⟨n!"1-Propyne(aq)", 209, n!"Aqueous|HKF|"⟩,  -- C3H4|3:C 4:H|0.0
  ⟨n!"2-Butanone(aq)", 210, n!"Aqueous|HKF|"⟩,  -- C4H8O|4:C 8:H 1:O|0.0
  ⟨n!"2-Heptanone(aq)", 211, n!"Aqueous|HKF|"⟩,  -- C7H14O|7:C 14:H 1:O|0.0
  ⟨n!"2-Hexanone(aq)", 212, n!"Aqueous|HKF|"⟩,  -- C6H12O|6:C 12:H 1:O|0.0
  ⟨n!"2-Hydroxybutanoate-", 213, n!"Aqueous|HKF|"⟩,  -- C4H7O3-|4:C 7:H 3:O|-1.0
  ⟨n!"2-Hydroxybutanoic(aq)", 214, n!"Aqueous|HKF|"⟩,  -- C4H8O3|4:C 8:H 3:O|0.0
  ⟨n!"2-Hydroxydecanoate-", 215, n!"Aqueous|HKF|"⟩,  -- C10H19O3-|10:C 19:H 3:O|-1.0
  ⟨n!"2-Hydroxydecanoic(aq)", 216, n!"Aqueous|HKF|"⟩,  -- C10H20O3|10:C 20:H 3:O|0.0
  ⟨n!"2-Hydroxyheptanoate-", 217, n!"Aqueous|HKF|"⟩,  -- C7H13O3-|7:C 13:H 3:O|-1.0
  ⟨n!"2-Hydroxyheptanoic(aq)", 218, n!"Aqueous|HKF|"⟩,  -- C7H14O3|7:C 14:H 3:O|0.0
  ⟨n!"2-Hydroxyhexanoate-", 219, n!"Aqueous|HKF|"⟩,  -- C6H11O3-|6:C 11:H 3:O|-1.0
  ⟨n!"2-Hydroxyhexanoic(aq)", 220, n!"Aqueous|HKF|"⟩,  -- C6H12O3|6:C 12:H 3:O|0.0
  ⟨n!"2-Hydroxynonanoate-", 221, n!"Aqueous|HKF|"⟩,  -- C9H17O3-|9:C 17:H 3:O|-1.0
  ⟨n!"2-Hydroxynonanoic(aq)", 222, n!"Aqueous|HKF|"⟩,  -- C9H18O3|9:C 18:H 3:O|0.0
  ⟨n!"2-Hydroxyoctanoate-", 223, n!"Aqueous|HKF|"⟩,  -- C8H15O3-|8:C 15:H 3:O|-1.0
  ⟨n!"2-Hydroxyoctanoic(aq)", 224, n!"Aqueous|HKF|"⟩,  -- C8H16O3|8:C 16:H 3:O|0.0
  ⟨n!"2-Hydroxypentanoate-", 225, n!"Aqueous|HKF|"⟩,  -- C5H9O3-|5:C 9:H 3:O|-1.0
  ⟨n!"2-Hydroxypentanoic(aq)", 226, n!"Aqueous|HKF|"⟩,  -- C5H10O3|5:C 10:H 3:O|0.0
  ⟨n!"2-Octanone(aq)", 227, n!"Aqueous|HKF|"⟩,  -- C8H16O|8:C 16:H 1:O|0.0
  ⟨n!"2-Pentanone(aq)", 228, n!"Aqueous|HKF|"⟩,  -- C5H10O|5:C 10:H 1:O|0.0
  ⟨n!"A-Aminobutyric(aq)", 229, n!"Aqueous|HKF|"⟩,  -- C4H9NO2|4:C 9:H 2:O 1:N|0.0
  ⟨n!"Acetamide(aq)", 230, n!"Aqueous|HKF|"⟩,  -- CH3CONH2|2:C 5:H 1:O 1:N|0.0
  ⟨n!"Acetate-", 231, n!"Aqueous|HKF|"⟩,  -- C2H3O2-|2:C 3:H 2:O|-1.0
  ⟨n!"Acetic-Acid(aq)", 232, n!"Aqueous|HKF|"⟩,  -- C2H4O2|2:C 4:H 2:O|0.0
  ⟨n!"Acetone(aq)", 233, n!"Aqueous|HKF|"⟩,  -- C3H6O|3:C 6:H 1:O|0.0
  ⟨n!"Adipate-2", 234, n!"Aqueous|HKF|"⟩,  -- C6H8O4-2|6:C 8:H 4:O|-2.0
  ⟨n!"Adipic-Acid(aq)", 235, n!"Aqueous|HKF|"⟩,  -- C6H10O4|6:C 10:H 4:O|0.0
  ⟨n!"Alanine(aq)", 236, n!"Aqueous|HKF|"⟩,  -- C3H7NO2|3:C 7:H 2:O 1:N|0.0
  ⟨n!"Alanate-", 237, n!"Aqueous|HKF|"⟩,  -- C3H6NO2-|3:C 6:H 2:O 1:N|-1.0
  ⟨n!"Ar(aq)", 1500, n!"Aqueous|HKF|"⟩,  -- Ar|1:Ar|0.0
  ⟨n!"Arginine(aq)", 1501, n!"Aqueous|HKF|"⟩,  -- C6H14N4O2|6:C 14:H 2:O 4:N|0.0
  ⟨n!"Arginine+", 1502, n!"Aqueous|HKF|"⟩,  -- C6H15N4O2+|6:C 15:H 2:O 4:N|1.0
  ⟨n!"Arginine-", 1503, n!"Aqueous|HKF|"⟩,  -- C6H13N4O2-|6:C 13:H 2:O 4:N|-1.0
  ⟨n!"Asparagine(aq)", 239, n!"Aqueous|HKF|"⟩,  -- C4H8N2O3|4:C 8:H 3:O 2:N|0.0
  ⟨n!"Aspartic-Acid(aq)", 240, n!"Aqueous|HKF|"⟩,  -- C4H7NO4|4:C 7:H 4:O 1:N|0.0
  ⟨n!"Aspartate-", 2263, n!"Aqueous|HKF|"⟩,  -- C4H7NO4-|4:C 6:H 4:O 1:N|-1.0
  ⟨n!"Azelaic-Acid(aq)", 241, n!"Aqueous|HKF|"⟩,  -- C9H16O4|9:C 16:H 4:O|0.0
  ⟨n!"Azelate-2", 242, n!"Aqueous|HKF|"⟩,  -- C9H14O4-2|9:C 14:H 4:O|-2.0
  ⟨n!"Ag(CO3)-", 243, n!"Aqueous|HKF|"⟩,  -- Ag(CO3)-|1:Ag 1:C 3:O|-1.0
  ⟨n!"Ag(CO3)2-3", 244, n!"Aqueous|HKF|"⟩,  -- Ag(CO3)2-3|1:Ag 2:C 6:O|-3.0
  ⟨n!"Ag+", 245, n!"Aqueous|HKF|"⟩,  -- Ag+|1:Ag|1.0
  ⟨n!"Ag+2", 246, n!"Aqueous|HKF|"⟩,  -- Ag+2|1:Ag|2.0
  ⟨n!"AgCl(aq)", 247, n!"Aqueous|HKF|"⟩,  -- AgCl|1:Ag 1:Cl|0.0
  ⟨n!"AgCl2-", 248, n!"Aqueous|HKF|"⟩,  -- AgCl2-|1:Ag 2:Cl|-1.0
  ⟨n!"AgCl3-2", 249, n!"Aqueous|HKF|"⟩,  -- AgCl3-2|1:Ag 3:Cl|-2.0
  ⟨n!"AgCl4-3", 250, n!"Aqueous|HKF|"⟩,  -- AgCl4-3|1:Ag 4:Cl|-3.0
  ⟨n!"AgOH(aq)", 251, n!"Aqueous|HKF|"⟩,  -- AgOH|1:Ag 1:O 1:H|0.0
  ⟨n!"AgO-", 252, n!"Aqueous|HKF|"⟩,  -- AgO-|1:Ag 1:O|-1.0
  ⟨n!"AgNO3(aq)", 253, n!"Aqueous|HKF|"⟩,  -- AgNO3|1:Ag 1:N 3:O|0.0
  ⟨n!"Al+3", 254, n!"Aqueous|HKF|"⟩,  -- Al+3|1:Al|3.0
  ⟨n!"AlO+", 255, n!"Aqueous|HKF|"⟩,  -- AlO+|1:Al 1:O|1.0
  ⟨n!"AlOH+2", 256, n!"Aqueous|HKF|"⟩,  -- AlOH+2|1:Al 1:O 1:H|2.0
  ⟨n!"HAlO2(aq)", 257, n!"Aqueous|HKF|"⟩,  -- HAlO2|1:H 1:Al 2:O|0.0
  ⟨n!"AlO2-", 258, n!"Aqueous|HKF|"⟩,  -- AlO2-|1:Al 2:O|-1.0
  ⟨n!"Am+3", 1504, n!"Aqueous|HKF|"⟩]  -- Am+3|1:Am|3.0

/-- `supcrt07.yaml:4834-6654`. -/
def part3 : List Row := [
  ⟨n!"AmOH+2", 1505, n!"Aqueous|HKF|"⟩,  -- AmOH+2|1:Am 1:O 1:H|2.0
  ⟨n!"AmO+", 1506, n!"Aqueous|HKF|"⟩,  -- AmO+|1:Am 1:O|1.0
  ⟨n!"HAmO2(aq)", 1507, n!"Aqueous|HKF|"⟩,  -- HAmO2|1:Am 2:O 1:H|0.0
  ⟨n!"AmF+2", 1508, n!"Aqueous|HKF|"⟩,  -- AmF+2|1:Am 1:F|2.0
  ⟨n!"AmF2+", 1509, n!"Aqueous|HKF|"⟩,  -- AmF2+|1:Am 2:F|1.0
  ⟨n!"AmF3(aq)", 1510, n!"Aqueous|HKF|"⟩,  -- AmF3|1:Am 3:F|0.0
  ⟨n!"AmF4-", 1511, n!"Aqueous|HKF|"⟩,  -- AmF4-|1:Am 4:F|-1.0
  ⟨n!"AmCl+2", 1512, n!"Aqueous|HKF|"⟩,  -- AmCl+2|1:Am 1:Cl|2.0
  ⟨n!"AmCl2+", 1513, n!"Aqueous|HKF|"⟩,  -- AmCl2+|1:Am 2:Cl|1.0
  ⟨n!"AmCl3(aq)", 1514, n!"Aqueous|HKF|"⟩,  -- AmCl3|1:Am 3:Cl|0.0
  ⟨n!"AmCl4-", 1515, n!"Aqueous|HKF|"⟩,  -- AmCl4-|1:Am 4:Cl|-1.0
  ⟨n!"AmNO3+2", 1516, n!"Aqueous|HKF|"⟩,  -- AmNO3+2|1:Am 1:N 3:O|2.0
  ⟨n!"Am(NO3)2+", 1517, n!"Aqueous|HKF|"⟩,  -- Am(NO3)2+|1:Am 2:N 6:O|1.0
  ⟨n!"AmNO2+2", 1518, n!"Aqueous|HKF|"⟩,  -- AmNO2+2|1:Am 1:N 2:O|2.0
  ⟨n!"AmH2PO4+2", 1519, n!"Aqueous|HKF|"⟩,  -- AmH2PO4+2|1:Am 2:H 1:P 4:O|2.0
  ⟨n!"Am(SCN)+2", 1520, n!"Aqueous|HKF|"⟩,  -- AmSCN+2|1:Am 1:S 1:C 1:N|2.0
  ⟨n!"Am(SCN)2+", 1521, n!"Aqueous|HKF|"⟩,  -- Am(SCN)2+|1:Am 2:S 2:C 2:N|1.0
  ⟨n!"Am(SCN)3(aq)", 1522, n!"Aqueous|HKF|"⟩,  -- Am(SCN)3|1:Am 3:S 3:C 3:N|0.0
  ⟨n!"Am(HCO3)+2", 1523, n!"Aqueous|HKF|"⟩,  -- Am(HCO3)+2|1:Am 1:H 1:C 3:O|2.0
  ⟨n!"Am(ClO4)+2", 1524, n!"Aqueous|HKF|"⟩,  -- Am(ClO4)+2|1:Am 1:Cl 4:O|2.0
  ⟨n!"AmCO3+", 1525, n!"Aqueous|HKF|"⟩,  -- AmCO3+|1:Am 1:C 3:O|1.0
  ⟨n!"Am(CO3)2-", 1526, n!"Aqueous|HKF|"⟩,  -- Am(CO3)2-|1:Am 2:C 6:O|-1.0
  ⟨n!"AmSO4+", 1527, n!"Aqueous|HKF|"⟩,  -- AmSO4+|1:Am 1:S 4:O|1.0
  ⟨n!"Am(SO4)2-", 1528, n!"Aqueous|HKF|"⟩,  -- Am(SO4)2-|1:Am 2:S 8:O|-1.0
  ⟨n!"Am(Ac)+2", 1529, n!"Aqueous|HKF|"⟩,  -- AmCH3COO+2|1:Am 2:C 3:H 2:O|2.0
  ⟨n!"Am(Ac)2+", 1530, n!"Aqueous|HKF|"⟩,  -- Am(CH3COO)2+|1:Am 4:C 6:H 4:O|1.0
  ⟨n!"Am(Ac)3(aq)", 1531, n!"Aqueous|HKF|"⟩,  -- Am(CH3COO)3|1:Am 6:C 9:H 6:O|0.0
  ⟨n!"Am(Lac)+2", 1532, n!"Aqueous|HKF|"⟩,  -- AmCH3CH2OCO2+2|1:Am 3:C 5:H 3:O|2.0
  ⟨n!"Am(Lac)2+", 1533, n!"Aqueous|HKF|"⟩,  -- Am(CH3CH2OCO2)2+|1:Am 6:C 10:H 6:O|1.0
  ⟨n!"Am(For)+2", 1534, n!"Aqueous|HKF|"⟩,  -- AmCHO2+2|1:Am 1:C 1:H 2:O|2.0
  ⟨n!"Am(For)2+", 1535, n!"Aqueous|HKF|"⟩,  -- Am(CHO2)2+|1:Am 2:C 2:H 4:O|1.0
  ⟨n!"Am(Prop)+2", 1536, n!"Aqueous|HKF|"⟩,  -- AmCH3CH2CO2+2|1:Am 3:C 5:H 2:O|2.0
  ⟨n!"Am(Prop)2+", 1537, n!"Aqueous|HKF|"⟩,  -- Am(CH3CH2CO2)2+|1:Am 6:C 10:H 4:O|1.0
  ⟨n!"Am(But)+2", 1538, n!"Aqueous|HKF|"⟩,  -- AmCH3(CH2)2CO2+2|1:Am 4:C 7:H 2:O|2.0
  ⟨n!"Am(But)2+", 1539, n!"Aqueous|HKF|"⟩,  -- Am(CH3(CH2)2CO2)2+|1:Am 8:C 14:H 4:O|1.0
  ⟨n!"Am(Glyc)+2", 1540, n!"Aqueous|HKF|"⟩,  -- AmCH3OCO2+2|1:Am 2:C 3:H 3:O|2.0
  ⟨n!"Am(Glyc)2+", 1541, n!"Aqueous|HKF|"⟩,  -- Am(CH3OCO2)2+|1:Am 4:C 6:H 6:O|1.0
  ⟨n!"Au+", 259, n!"Aqueous|HKF|"⟩,  -- Au+|1:Au|1.0
  ⟨n!"Au+3", 260, n!"Aqueous|HKF|"⟩,  -- Au+3|1:Au|3.0
  ⟨n!"B(OH)3(aq)", 261, n!"Aqueous|HKF|"⟩,  -- B(OH)3|1:B 3:O 3:H|0.0
  ⟨n!"Benzene(aq)", 262, n!"Aqueous|HKF|"⟩,  -- C6H6|6:C 6:H|0.0
  ⟨n!"Benzoate-", 263, n!"Aqueous|HKF|"⟩,  -- C7H5O2-|7:C 5:H 2:O|-1.0
  ⟨n!"Benzoic-Acid(aq)", 264, n!"Aqueous|HKF|"⟩,  -- C7H6O2|7:C 6:H 2:O|0.0
  ⟨n!"BF4-", 265, n!"Aqueous|HKF|"⟩,  -- BF4-|1:B 4:F|-1.0
  ⟨n!"BO2-", 266, n!"Aqueous|HKF|"⟩,  -- BO2-|1:B 2:O|-1.0
  ⟨n!"Butane(aq)", 267, n!"Aqueous|HKF|"⟩,  -- C4H10|4:C 10:H|0.0
  ⟨n!"Butanoic-Acid(aq)", 268, n!"Aqueous|HKF|"⟩,  -- C4H8O2|4:C 8:H 2:O|0.0
  ⟨n!"Ba(HCO3)+", 269, n!"Aqueous|HKF|"⟩,  -- Ba(HCO3)+|1:Ba 1:H 1:C 3:O|1.0
  ⟨n!"Ba+2", 270, n!"Aqueous|HKF|"⟩,  -- Ba+2|1:Ba|2.0
  ⟨n!"BaCl+", 271, n!"Aqueous|HKF|"⟩,  -- BaCl+|1:Ba 1:Cl|1.0
  ⟨n!"BaOH+", 272, n!"Aqueous|HKF|"⟩,  -- BaOH+|1:Ba 1:O 1:H|1.0
  ⟨n!"Be+2", 273, n!"Aqueous|HKF|"⟩,  -- Be+2|1:Be|2.0
  ⟨n!"BeOH+", 274, n!"Aqueous|HKF|"⟩,  -- BeOH+|1:Be 1:O 1:H|1.0
  ⟨n!"BeO(aq)", 275, n!"Aqueous|HKF|"⟩,  -- BeO|1:Be 1:O|0.0
  ⟨n!"HBeO2-", 276, n!"Aqueous|HKF|"⟩,  -- HBeO2-|1:H 1:Be 2:O|-1.0
  ⟨n!"BeO2-2", 277, n!"Aqueous|HKF|"⟩,  -- BeO2-2|1:Be 2:O|-2.0
  ⟨n!"Br-", 278, n!"Aqueous|HKF|"⟩,  -- Br-|1:Br|-1.0
  ⟨n!"Br3-", 279, n!"Aqueous|HKF|"⟩,  -- Br3-|3:Br|-1.0
  ⟨n!"HBrO(aq)", 280, n!"Aqueous|HKF|"⟩,  -- HBrO|1:H 1:Br 1:O|0.0
  ⟨n!"BrO-", 281, n!"Aqueous|HKF|"⟩,  -- BrO-|1:Br 1:O|-1.0
  ⟨n!"BrO3-", 282, n!"Aqueous|HKF|"⟩,  -- BrO3-|1:Br 3:O|-1.0
  ⟨n!"BrO4-", 283, n!"Aqueous|HKF|"⟩,  -- BrO4-|1:Br 4:O|-1.0
  ⟨n!"CaOH+", 284, n!"Aqueous|HKF|"⟩,  -- CaOH+|1:Ca 1:O 1:H|1.0
  ⟨n!"Ce+4", 285, n!"Aqueous|HKF|"⟩,  -- Ce+4|1:Ce|4.0
  ⟨n!"HCN(aq)", 286, n!"Aqueous|HKF|"⟩,  -- HCN|1:H 1:C 1:N|0.0
  ⟨n!"CN-", 287, n!"Aqueous|HKF|"⟩,  -- CN-|1:C 1:N|-1.0
  ⟨n!"CO(aq)", 288, n!"Aqueous|HKF|"⟩,  -- CO|1:C 1:O|0.0
  ⟨n!"CO2(aq)", 289, n!"Aqueous|HKF|"⟩,  -- CO2|1:C 2:O|0.0
  ⟨n!"CO3-2", 290, n!"Aqueous|HKF|"⟩,  -- CO3-2|1:C 3:O|-2.0
  ⟨n!"Ca(HCO3)+", 291, n!"Aqueous|HKF|"⟩,  -- Ca(HCO3)+|1:Ca 1:H 1:C 3:O|1.0
  ⟨n!"Ca+2", 292, n!"Aqueous|HKF|"⟩,  -- Ca+2|1:Ca|2.0
  ⟨n!"CaCl+", 293, n!"Aqueous|HKF|"⟩,  -- CaCl+|1:Ca 1:Cl|1.0
  ⟨n!"CaCl2(aq)", 294, n!"Aqueous|HKF|"⟩,  -- CaCl2|1:Ca 2:Cl|0.0
  ⟨n!"CaF+", 295, n!"Aqueous|HKF|"⟩,  -- CaF+|1:Ca 1:F|1.0
  ⟨n!"CaSO4(aq)", 296, n!"Aqueous|HKF|"⟩,  -- CaSO4|1:Ca 1:S 4:O|0.0
  ⟨n!"Cd+2", 297, n!"Aqueous|HKF|"⟩,  -- Cd+2|1:Cd|2.0
  ⟨n!"CdOH+", 298, n!"Aqueous|HKF|"⟩,  -- CdOH+|1:Cd 1:O 1:H|1.0
  ⟨n!"CdO(aq)", 299, n!"Aqueous|HKF|"⟩,  -- CdO|1:Cd 1:O|0.0
  ⟨n!"HCdO2-", 300, n!"Aqueous|HKF|"⟩,  -- HCdO2-|1:H 1:Cd 2:O|-1.0
  ⟨n!"CdO2-2", 301, n!"Aqueous|HKF|"⟩,  -- CdO2-2|1:Cd 2:O|-2.0
  ⟨n!"Ce+2", 302, n!"Aqueous|HKF|"⟩,  -- Ce+2|1:Ce|2.0
  ⟨n!"Ce+3", 303, n!"Aqueous|HKF|"⟩,  -- Ce+3|1:Ce|3.0
  ⟨n!"Cl-", 304, n!"Aqueous|HKF|"⟩,  -- Cl-|1:Cl|-1.0
  ⟨n!"HClO(aq)", 305, n!"Aqueous|HKF|"⟩,  -- HClO|1:H 1:Cl 1:O|0.0
  ⟨n!"ClO-", 306, n!"Aqueous|HKF|"⟩,  -- ClO-|1:Cl 1:O|-1.0
  ⟨n!"ClO2-", 307, n!"Aqueous|HKF|"⟩,  -- ClO2-|1:Cl 2:O|-1.0
  ⟨n!"ClO3-", 308, n!"Aqueous|HKF|"⟩,  -- ClO3-|1:Cl 3:O|-1.0
  ⟨n!"ClO4-", 309, n!"Aqueous|HKF|"⟩,  -- ClO4-|1:Cl 4:O|-1.0
  ⟨n!"Co+2", 310, n!"Aqueous|HKF|"⟩,  -- Co+2|1:Co|2.0
  ⟨n!"Co+3", 311, n!"Aqueous|HKF|"⟩,  -- Co+3|1:Co|3.0
  ⟨n!"CoOH+", 312, n!"Aqueous|HKF|"⟩,  -- CoOH+|1:Co 1:O 1:H|1.0
  ⟨n!"CoO(aq)", 313, n!"Aqueous|HKF|"⟩,  -- CoO|1:Co 1:O|0.0
  ⟨n!"HCoO2-", 314, n!"Aqueous|HKF|"⟩,  -- HCoO2-|1:H 1:Co 2:O|-1.0
  ⟨n!"CoO2-2", 315, n!"Aqueous|HKF|"⟩,  -- CoO2-2|1:Co 2:O|-2.0
  ⟨n!"CoOH+2", 316, n!"Aqueous|HKF|"⟩,  -- CoOH+2|1:Co 1:O 1:H|2.0
  ⟨n!"o-Cresol(aq)", 317, n!"Aqueous|HKF|"⟩,  -- C6H4OHCH3|7:C 8:H 1:O|0.0
  ⟨n!"m-Cresol(aq)", 317, n!"Aqueous|HKF|"⟩,  -- C6H4OHCH3|7:C 8:H 1:O|0.0
  ⟨n!"p-Cresol(aq)", 317, n!"Aqueous|HKF|"⟩,  -- C6H4OHCH3|7:C 8:H 1:O|0.0
  ⟨n!"Cr2O7-2", 318, n!"Aqueous|HKF|"⟩,  -- Cr2O7-2|2:Cr 7:O|-2.0
  ⟨n!"CrO4-2", 319, n!"Aqueous|HKF|"⟩]  -- CrO4-2|1:Cr 4:O|-2.0

/-- `supcrt07.yaml:6655-8500`. -/
def part4 : List Row := [
  ⟨n!"Cs+", 320, n!"Aqueous|HKF|"⟩,  -- Cs+|1:Cs|1.0
  ⟨n!"CsBr(aq)", 321, n!"Aqueous|HKF|"⟩,  -- CsBr|1:Cs 1:Br|0.0
  ⟨n!"CsCl(aq)", 322, n!"Aqueous|HKF|"⟩,  -- CsCl|1:Cs 1:Cl|0.0
  ⟨n!"CsI(aq)", 323, n!"Aqueous|HKF|"⟩,  -- CsI|1:Cs 1:I|0.0
  ⟨n!"CsOH(aq)", 324, n!"Aqueous|HKF|"⟩,  -- CsOH|1:Cs 1:O 1:H|0.0
  ⟨n!"Cu+", 325, n!"Aqueous|HKF|"⟩,  -- Cu+|1:Cu|1.0
  ⟨n!"Cu+2", 326, n!"Aqueous|HKF|"⟩,  -- Cu+2|1:Cu|2.0
  ⟨n!"CuOH+", 327, n!"Aqueous|HKF|"⟩,  -- CuOH+|1:Cu 1:O 1:H|1.0
  ⟨n!"CuO(aq)", 328, n!"Aqueous|HKF|"⟩,  -- CuO|1:Cu 1:O|0.0
  ⟨n!"HCuO2-", 329, n!"Aqueous|HKF|"⟩,  -- HCuO2-|1:H 1:Cu 2:O|-1.0
  ⟨n!"CuO2-2", 330, n!"Aqueous|HKF|"⟩,  -- CuO2-2|1:Cu 2:O|-2.0
  ⟨n!"Cyclohexane(aq)", 196, n!"Aqueous|HKF|"⟩,  -- C6H12|6:C 12:H|0.0
  ⟨n!"Cysteine(aq)", 1542, n!"Aqueous|HKF|"⟩,  -- C3H7NO2S|3:C 7:H 2:O 1:N 1:S|0.0
  ⟨n!"Cystate-", 1543, n!"Aqueous|HKF|"⟩,  -- C3H6NO2S-|3:C 6:H 2:O 1:N 1:S|-1.0
  ⟨n!"Decanoate-", 331, n!"Aqueous|HKF|"⟩,  -- C10H19O2-|10:C 19:H 2:O|-1.0
  ⟨n!"Decanoic-Acid(aq)", 332, n!"Aqueous|HKF|"⟩,  -- C10H20O2|10:C 20:H 2:O|0.0
  ⟨n!"2,3-DMP(aq)", 334, n!"Aqueous|HKF|"⟩,  -- C6H3OHCH3CH3|8:C 10:H 1:O|0.0
  ⟨n!"2,4-DMP(aq)", 334, n!"Aqueous|HKF|"⟩,  -- C6H3OHCH3CH3|8:C 10:H 1:O|0.0
  ⟨n!"2,5-DMP(aq)", 334, n!"Aqueous|HKF|"⟩,  -- C6H3OHCH3CH3|8:C 10:H 1:O|0.0
  ⟨n!"2,6-DMP(aq)", 334, n!"Aqueous|HKF|"⟩,  -- C6H3OHCH3CH3|8:C 10:H 1:O|0.0
  ⟨n!"3,4-DMP(aq)", 334, n!"Aqueous|HKF|"⟩,  -- C6H3OHCH3CH3|8:C 10:H 1:O|0.0
  ⟨n!"3,5-DMP(aq)", 334, n!"Aqueous|HKF|"⟩,  -- C6H3OHCH3CH3|8:C 10:H 1:O|0.0
  ⟨n!"Dodecanoate-", 335, n!"Aqueous|HKF|"⟩,  -- C12H23O2-|12:C 23:H 2:O|-1.0
  ⟨n!"Dodecanoic-Acid(aq)", 336, n!"Aqueous|HKF|"⟩,  -- C12H24O2|12:C 24:H 2:O|0.0
  ⟨n!"Dy+2", 337, n!"Aqueous|HKF|"⟩,  -- Dy+2|1:Dy|2.0
  ⟨n!"Dy+3", 338, n!"Aqueous|HKF|"⟩,  -- Dy+3|1:Dy|3.0
  ⟨n!"Dy+4", 339, n!"Aqueous|HKF|"⟩,  -- Dy+4|1:Dy|4.0
  ⟨n!"Ethanamine(aq)", 340, n!"Aqueous|HKF|"⟩,  -- C2H5NH2|2:C 7:H 1:N|0.0
  ⟨n!"Ethane(aq)", 341, n!"Aqueous|HKF|"⟩,  -- C2H6|2:C 6:H|0.0
  ⟨n!"Ethanol(aq)", 342, n!"Aqueous|HKF|"⟩,  -- C2H5OH|2:C 6:H 1:O|0.0
  ⟨n!"Ethylacetate(aq)", 343, n!"Aqueous|HKF|"⟩,  -- CH3COOCH2CH3|4:C 8:H 2:O|0.0
  ⟨n!"Ethylbenzene(aq)", 344, n!"Aqueous|HKF|"⟩,  -- C6H5C2H5|8:C 10:H|0.0
  ⟨n!"Ethylene(aq)", 345, n!"Aqueous|HKF|"⟩,  -- C2H4|2:C 4:H|0.0
  ⟨n!"Ethyne(aq)", 346, n!"Aqueous|HKF|"⟩,  -- C2H2|2:C 2:H|0.0
  ⟨n!"Er+2", 347, n!"Aqueous|HKF|"⟩,  -- Er+2|1:Er|2.0
  ⟨n!"Er+3", 348, n!"Aqueous|HKF|"⟩,  -- Er+3|1:Er|3.0
  ⟨n!"Er+4", 349, n!"Aqueous|HKF|"⟩,  -- Er+4|1:Er|4.0
  ⟨n!"Eu+2", 350, n!"Aqueous|HKF|"⟩,  -- Eu+2|1:Eu|2.0
  ⟨n!"Eu+3", 351, n!"Aqueous|HKF|"⟩,  -- Eu+3|1:Eu|3.0
  ⟨n!"Eu+4", 352, n!"Aqueous|HKF|"⟩,  -- Eu+4|1:Eu|4.0
  ⟨n!"F-", 353, n!"Aqueous|HKF|"⟩,  -- F-|1:F|-1.0
  ⟨n!"Formate-", 354, n!"Aqueous|HKF|"⟩,  -- HCO2-|1:H 1:C 2:O|-1.0
  ⟨n!"Formic-Acid(aq)", 355, n!"Aqueous|HKF|"⟩,  -- H2CO2|1:C 2:H 2:O|0.0
  ⟨n!"Fe+2", 356, n!"Aqueous|HKF|"⟩,  -- Fe+2|1:Fe|2.0
  ⟨n!"Fe+3", 357, n!"Aqueous|HKF|"⟩,  -- Fe+3|1:Fe|3.0
  ⟨n!"FeCl+", 358, n!"Aqueous|HKF|"⟩,  -- FeCl+|1:Fe 1:Cl|1.0
  ⟨n!"FeCl2(aq)", 359, n!"Aqueous|HKF|"⟩,  -- FeCl2|1:Fe 2:Cl|0.0
  ⟨n!"FeOH+2", 360, n!"Aqueous|HKF|"⟩,  -- FeOH+2|1:Fe 1:O 1:H|2.0
  ⟨n!"FeOH+", 361, n!"Aqueous|HKF|"⟩,  -- FeOH+|1:Fe 1:O 1:H|1.0
  ⟨n!"FeO+", 362, n!"Aqueous|HKF|"⟩,  -- FeO+|1:Fe 1:O|1.0
  ⟨n!"FeO(aq)", 363, n!"Aqueous|HKF|"⟩,  -- FeO|1:Fe 1:O|0.0
  ⟨n!"HFeO2-", 2253, n!"Aqueous|HKF|"⟩,  -- HFe2O-|1:H 1:Fe 2:O|-1.0
  ⟨n!"HFeO2(aq)", 364, n!"Aqueous|HKF|"⟩,  -- HFeO2|1:H 1:Fe 2:O|0.0
  ⟨n!"FeO2-", 365, n!"Aqueous|HKF|"⟩,  -- FeO2-|1:Fe 2:O|-1.0
  ⟨n!"Glutamic-Acid(aq)", 366, n!"Aqueous|HKF|"⟩,  -- C5H9NO4|5:C 9:H 4:O 1:N|0.0
  ⟨n!"Glutamate-", 1544, n!"Aqueous|HKF|"⟩,  -- C5H8NO4-|5:C 8:H 4:O 1:N|-1.0
  ⟨n!"Glutamine(aq)", 367, n!"Aqueous|HKF|"⟩,  -- C5H10N2O3|5:C 10:H 3:O 2:N|0.0
  ⟨n!"Glutarate-2", 368, n!"Aqueous|HKF|"⟩,  -- C5H6O4-2|5:C 6:H 4:O|-2.0
  ⟨n!"Glutaric-Acid(aq)", 369, n!"Aqueous|HKF|"⟩,  -- C5H8O4|5:C 8:H 4:O|0.0
  ⟨n!"Glycine(aq)", 370, n!"Aqueous|HKF|"⟩,  -- C2H5NO2|2:C 5:H 2:O 1:N|0.0
  ⟨n!"Glycine+", 1545, n!"Aqueous|HKF|"⟩,  -- C2H6NO2+|2:C 6:H 2:O 1:N|1.0
  ⟨n!"Glycinate-", 371, n!"Aqueous|HKF|"⟩,  -- C2H4NO2-|2:C 4:H 2:O 1:N|-1.0
  ⟨n!"Glycolate-", 372, n!"Aqueous|HKF|"⟩,  -- C2H3O3-|2:C 3:H 3:O|-1.0
  ⟨n!"Glycolic-Acid(aq)", 373, n!"Aqueous|HKF|"⟩,  -- C2H4O3|2:C 4:H 3:O|0.0
  ⟨n!"Ga+3", 375, n!"Aqueous|HKF|"⟩,  -- Ga+3|1:Ga|3.0
  ⟨n!"GaOH+2", 376, n!"Aqueous|HKF|"⟩,  -- GaOH+2|1:Ga 1:O 1:H|2.0
  ⟨n!"GaO+", 377, n!"Aqueous|HKF|"⟩,  -- GaO+|1:Ga 1:O|1.0
  ⟨n!"HGaO2(aq)", 378, n!"Aqueous|HKF|"⟩,  -- HGaO2|1:H 1:Ga 2:O|0.0
  ⟨n!"GaO2-", 379, n!"Aqueous|HKF|"⟩,  -- GaO2-|1:Ga 2:O|-1.0
  ⟨n!"Gd+2", 380, n!"Aqueous|HKF|"⟩,  -- Gd+2|1:Gd|2.0
  ⟨n!"Gd+3", 381, n!"Aqueous|HKF|"⟩,  -- Gd+3|1:Gd|3.0
  ⟨n!"Gd+4", 382, n!"Aqueous|HKF|"⟩,  -- Gd+4|1:Gd|4.0
  ⟨n!"H+", 383, n!"Aqueous|HKF|"⟩,  -- H+|1:H|1.0
  ⟨n!"H-Adipate-", 384, n!"Aqueous|HKF|"⟩,  -- C6H9O4-|6:C 9:H 4:O|-1.0
  ⟨n!"H-Azelate-", 385, n!"Aqueous|HKF|"⟩,  -- C9H15O4-|9:C 15:H 4:O|-1.0
  ⟨n!"H-Glutarate-", 386, n!"Aqueous|HKF|"⟩,  -- C5H7O4-|5:C 7:H 4:O|-1.0
  ⟨n!"H-Malonate-", 387, n!"Aqueous|HKF|"⟩,  -- C3H3O4-|3:C 3:H 4:O|-1.0
  ⟨n!"H-Oxalate-", 388, n!"Aqueous|HKF|"⟩,  -- C2HO4-|2:C 1:H 4:O|-1.0
  ⟨n!"H-Pimelate-", 389, n!"Aqueous|HKF|"⟩,  -- C7H11O4-|7:C 11:H 4:O|-1.0
  ⟨n!"H-Sebacate-", 390, n!"Aqueous|HKF|"⟩,  -- C10H17O4-|10:C 17:H 4:O|-1.0
  ⟨n!"H-Suberate-", 391, n!"Aqueous|HKF|"⟩,  -- C8H13O4-|8:C 13:H 4:O|-1.0
  ⟨n!"H-Succinate-", 1546, n!"Aqueous|HKF|"⟩,  -- C4H5O4-|4:C 5:H 4:O|-1.0
  ⟨n!"H2(aq)", 392, n!"Aqueous|HKF|"⟩,  -- H2|2:H|0.0
  ⟨n!"H2AsO3-", 393, n!"Aqueous|HKF|"⟩,  -- H2AsO3-|2:H 1:As 3:O|-1.0
  ⟨n!"H2AsO4-", 394, n!"Aqueous|HKF|"⟩,  -- H2AsO4-|2:H 1:As 4:O|-1.0
  ⟨n!"H2P2O7-2", 395, n!"Aqueous|HKF|"⟩,  -- H2P2O7-2|2:H 2:P 7:O|-2.0
  ⟨n!"H2PO4-", 396, n!"Aqueous|HKF|"⟩,  -- H2PO4-|2:H 1:P 4:O|-1.0
  ⟨n!"H2S(aq)", 397, n!"Aqueous|HKF|"⟩,  -- H2S|2:H 1:S|0.0
  ⟨n!"H3VO4(aq)", 398, n!"Aqueous|HKF|"⟩,  -- H3VO4|3:H 1:V 4:O|0.0
  ⟨n!"H2VO4-", 399, n!"Aqueous|HKF|"⟩,  -- H2VO4-|2:H 1:V 4:O|-1.0
  ⟨n!"H3P2O7-", 400, n!"Aqueous|HKF|"⟩,  -- H3P2O7-|3:H 2:P 7:O|-1.0
  ⟨n!"H3PO4(aq)", 401, n!"Aqueous|HKF|"⟩,  -- H3PO4|3:H 1:P 4:O|0.0
  ⟨n!"HAsO4-2", 402, n!"Aqueous|HKF|"⟩,  -- HAsO4-2|1:H 1:As 4:O|-2.0
  ⟨n!"HCO3-", 403, n!"Aqueous|HKF|"⟩,  -- HCO3-|1:H 1:C 3:O|-1.0
  ⟨n!"HCrO4-", 404, n!"Aqueous|HKF|"⟩,  -- HCrO4-|1:H 1:Cr 4:O|-1.0
  ⟨n!"Heptane(aq)", 405, n!"Aqueous|HKF|"⟩,  -- C7H16|7:C 16:H|0.0
  ⟨n!"Heptanoate-", 1547, n!"Aqueous|HKF|"⟩,  -- C7H13O2-|7:C 13:H 2:O|-1.0
  ⟨n!"Heptanoic-Acid(aq)", 406, n!"Aqueous|HKF|"⟩,  -- C7H14O2|7:C 14:H 2:O|0.0
  ⟨n!"Hexanoate-", 408, n!"Aqueous|HKF|"⟩,  -- C6H11O2-|6:C 11:H 2:O|-1.0
  ⟨n!"Hexanoic-Acid(aq)", 409, n!"Aqueous|HKF|"⟩]  -- C6H12O2|6:C 12:H 2:O|0.0

/-- `supcrt07.yaml:8501-10331`. -/
def part5 : List Row := [
  ⟨n!"HF(aq)", 410, n!"Aqueous|HKF|"⟩,  -- HF|1:H 1:F|0.0
  ⟨n!"HF2-", 411, n!"Aqueous|HKF|"⟩,  -- HF2-|1:H 2:F|-1.0
  ⟨n!"Histidine(aq)", 1548, n!"Aqueous|HKF|"⟩,  -- C6H9N3O2|6:C 9:H 2:O 3:N|0.0
  ⟨n!"Histidine+", 1549, n!"Aqueous|HKF|"⟩,  -- C6H10N3O2+|6:C 10:H 2:O 3:N|1.0
  ⟨n!"HNO3(aq)", 412, n!"Aqueous|HKF|"⟩,  -- HNO3|1:H 1:N 3:O|0.0
  ⟨n!"HO2-", 413, n!"Aqueous|HKF|"⟩,  -- HO2-|1:H 2:O|-1.0
  ⟨n!"HPO4-2", 414, n!"Aqueous|HKF|"⟩,  -- HPO4-2|1:H 1:P 4:O|-2.0
  ⟨n!"HS-", 415, n!"Aqueous|HKF|"⟩,  -- HS-|1:H 1:S|-1.0
  ⟨n!"HSO3-", 416, n!"Aqueous|HKF|"⟩,  -- HSO3-|1:H 1:S 3:O|-1.0
  ⟨n!"HSO4-", 417, n!"Aqueous|HKF|"⟩,  -- HSO4-|1:H 1:S 4:O|-1.0
  ⟨n!"HSO5-", 418, n!"Aqueous|HKF|"⟩,  -- HSO5-|1:H 1:S 5:O|-1.0
  ⟨n!"HSe-", 419, n!"Aqueous|HKF|"⟩,  -- HSe-|1:H 1:Se|-1.0
  ⟨n!"H2SeO3(aq)", 1550, n!"Aqueous|HKF|"⟩,  -- H2SeO3|2:H 1:Se 3:O|0.0
  ⟨n!"HSeO3-", 420, n!"Aqueous|HKF|"⟩,  -- HSeO3-|1:H 1:Se 3:O|-1.0
  ⟨n!"HSeO4-", 421, n!"Aqueous|HKF|"⟩,  -- HSeO4-|1:H 1:Se 4:O|-1.0
  ⟨n!"HSiO3-", 422, n!"Aqueous|HKF|"⟩,  -- HSiO3-|1:H 1:Si 3:O|-1.0
  ⟨n!"HVO4-2", 423, n!"Aqueous|HKF|"⟩,  -- HVO4-2|1:H 1:V 4:O|-2.0
  ⟨n!"He(aq)", 424, n!"Aqueous|HKF|"⟩,  -- He|1:He|0.0
  ⟨n!"Hg+2", 425, n!"Aqueous|HKF|"⟩,  -- Hg+2|1:Hg|2.0
  ⟨n!"HgOH+", 426, n!"Aqueous|HKF|"⟩,  -- HgOH+|1:Hg 1:O 1:H|1.0
  ⟨n!"HgO(aq)", 427, n!"Aqueous|HKF|"⟩,  -- HgO|1:Hg 1:O|0.0
  ⟨n!"HHgO2-", 428, n!"Aqueous|HKF|"⟩,  -- HHgO2-|1:H 1:Hg 2:O|-1.0
  ⟨n!"Hg2+2", 429, n!"Aqueous|HKF|"⟩,  -- Hg2+2|2:Hg|2.0
  ⟨n!"Ho+2", 430, n!"Aqueous|HKF|"⟩,  -- Ho+2|1:Ho|2.0
  ⟨n!"Ho+3", 431, n!"Aqueous|HKF|"⟩,  -- Ho+3|1:Ho|3.0
  ⟨n!"Ho+4", 432, n!"Aqueous|HKF|"⟩,  -- Ho+4|1:Ho|4.0
  ⟨n!"I-", 433, n!"Aqueous|HKF|"⟩,  -- I-|1:I|-1.0
  ⟨n!"I3-", 434, n!"Aqueous|HKF|"⟩,  -- I3-|3:I|-1.0
  ⟨n!"HIO(aq)", 435, n!"Aqueous|HKF|"⟩,  -- HIO|1:H 1:I 1:O|0.0
  ⟨n!"IO-", 436, n!"Aqueous|HKF|"⟩,  -- IO-|1:I 1:O|-1.0
  ⟨n!"IO3-", 437, n!"Aqueous|HKF|"⟩,  -- IO3-|1:I 3:O|-1.0
  ⟨n!"IO4-", 438, n!"Aqueous|HKF|"⟩,  -- IO4-|1:I 4:O|-1.0
  ⟨n!"Isoleucine(aq)", 439, n!"Aqueous|HKF|"⟩,  -- C6H13NO2|6:C 13:H 2:O 1:N|0.0
  ⟨n!"In+3", 440, n!"Aqueous|HKF|"⟩,  -- In+3|1:In|3.0
  ⟨n!"InOH+2", 441, n!"Aqueous|HKF|"⟩,  -- InOH+2|1:In 1:O 1:H|2.0
  ⟨n!"InO+", 442, n!"Aqueous|HKF|"⟩,  -- InO+|1:In 1:O|1.0
  ⟨n!"HInO2(aq)", 443, n!"Aqueous|HKF|"⟩,  -- HInO2|1:H 1:In 2:O|0.0
  ⟨n!"InO2-", 444, n!"Aqueous|HKF|"⟩,  -- InO2-|1:In 2:O|-1.0
  ⟨n!"K+", 445, n!"Aqueous|HKF|"⟩,  -- K+|1:K|1.0
  ⟨n!"KBr(aq)", 446, n!"Aqueous|HKF|"⟩,  -- KBr|1:K 1:Br|0.0
  ⟨n!"KCl(aq)", 447, n!"Aqueous|HKF|"⟩,  -- KCl|1:K 1:Cl|0.0
  ⟨n!"KHSO4(aq)", 448, n!"Aqueous|HKF|"⟩,  -- KHSO4|1:K 1:H 1:S 4:O|0.0
  ⟨n!"KI(aq)", 449, n!"Aqueous|HKF|"⟩,  -- KI|1:K 1:I|0.0
  ⟨n!"KOH(aq)", 450, n!"Aqueous|HKF|"⟩,  -- KOH|1:K 1:O 1:H|0.0
  ⟨n!"KSO4-", 451, n!"Aqueous|HKF|"⟩,  -- KSO4-|1:K 1:S 4:O|-1.0
  ⟨n!"Kr(aq)", 452, n!"Aqueous|HKF|"⟩,  -- Kr|1:Kr|0.0
  ⟨n!"Lactate-", 453, n!"Aqueous|HKF|"⟩,  -- C3H5O3-|3:C 5:H 3:O|-1.0
  ⟨n!"Lactic-Acid(aq)", 454, n!"Aqueous|HKF|"⟩,  -- C3H6O3|3:C 6:H 3:O|0.0
  ⟨n!"Leucine(aq)", 439, n!"Aqueous|HKF|"⟩,  -- C6H13NO2|6:C 13:H 2:O 1:N|0.0
  ⟨n!"La+3", 455, n!"Aqueous|HKF|"⟩,  -- La+3|1:La|3.0
  ⟨n!"Li+", 456, n!"Aqueous|HKF|"⟩,  -- Li+|1:Li|1.0
  ⟨n!"LiCl(aq)", 457, n!"Aqueous|HKF|"⟩,  -- LiCl|1:Li 1:Cl|0.0
  ⟨n!"LiOH(aq)", 458, n!"Aqueous|HKF|"⟩,  -- LiOH|1:Li 1:O 1:H|0.0
  ⟨n!"Lu+3", 459, n!"Aqueous|HKF|"⟩,  -- Lu+3|1:Lu|3.0
  ⟨n!"Lu+4", 460, n!"Aqueous|HKF|"⟩,  -- Lu+4|1:Lu|4.0
  ⟨n!"Lysine(aq)", 1551, n!"Aqueous|HKF|"⟩,  -- C6H14N2O2|6:C 14:H 2:O 2:N|0.0
  ⟨n!"Lysine+", 1552, n!"Aqueous|HKF|"⟩,  -- C6H15N2O2+|6:C 15:H 2:O 2:N|1.0
  ⟨n!"Lysine-", 1553, n!"Aqueous|HKF|"⟩,  -- C6H13N2O2-|6:C 13:H 2:O 2:N|-1.0
  ⟨n!"m-Toluate-", 461, n!"Aqueous|HKF|"⟩,  -- C8H7O2-|8:C 7:H 2:O|-1.0
  ⟨n!"m-Toluic-Acid(aq)", 462, n!"Aqueous|HKF|"⟩,  -- C8H8O2|8:C 8:H 2:O|0.0
  ⟨n!"Malonate-2", 463, n!"Aqueous|HKF|"⟩,  -- C3H2O4-2|3:C 2:H 4:O|-2.0
  ⟨n!"Malonic-Acid(aq)", 464, n!"Aqueous|HKF|"⟩,  -- C3H4O4|3:C 4:H 4:O|0.0
  ⟨n!"Methanamine(aq)", 465, n!"Aqueous|HKF|"⟩,  -- CH3NH2|1:C 5:H 1:N|0.0
  ⟨n!"Methane(aq)", 466, n!"Aqueous|HKF|"⟩,  -- CH4|1:C 4:H|0.0
  ⟨n!"Methanol(aq)", 467, n!"Aqueous|HKF|"⟩,  -- CH3OH|1:C 4:H 1:O|0.0
  ⟨n!"Methionine(aq)", 468, n!"Aqueous|HKF|"⟩,  -- C5H11NO2S|5:C 11:H 2:O 1:N 1:S|0.0
  ⟨n!"Mg(HCO3)+", 469, n!"Aqueous|HKF|"⟩,  -- Mg(HCO3)+|1:Mg 1:H 1:C 3:O|1.0
  ⟨n!"Mg+2", 470, n!"Aqueous|HKF|"⟩,  -- Mg+2|1:Mg|2.0
  ⟨n!"MgCl+", 471, n!"Aqueous|HKF|"⟩,  -- MgCl+|1:Mg 1:Cl|1.0
  ⟨n!"MgF+", 472, n!"Aqueous|HKF|"⟩,  -- MgF+|1:Mg 1:F|1.0
  ⟨n!"MgOH+", 473, n!"Aqueous|HKF|"⟩,  -- MgOH+|1:Mg 1:O 1:H|1.0
  ⟨n!"Mn+2", 474, n!"Aqueous|HKF|"⟩,  -- Mn+2|1:Mn|2.0
  ⟨n!"Mn+3", 475, n!"Aqueous|HKF|"⟩,  -- Mn+3|1:Mn|3.0
  ⟨n!"MnCl+", 476, n!"Aqueous|HKF|"⟩,  -- MnCl+|1:Mn 1:Cl|1.0
  ⟨n!"MnOH+", 477, n!"Aqueous|HKF|"⟩,  -- MnOH+|1:Mn 1:O 1:H|1.0
  ⟨n!"MnO(aq)", 478, n!"Aqueous|HKF|"⟩,  -- MnO|1:Mn 1:O|0.0
  ⟨n!"HMnO2-", 479, n!"Aqueous|HKF|"⟩,  -- HMnO2-|1:H 1:Mn 2:O|-1.0
  ⟨n!"MnO2-2", 480, n!"Aqueous|HKF|"⟩,  -- MnO2-2|1:Mn 2:O|-2.0
  ⟨n!"MnO4-", 481, n!"Aqueous|HKF|"⟩,  -- MnO4-|1:Mn 4:O|-1.0
  ⟨n!"MnO4-2", 482, n!"Aqueous|HKF|"⟩,  -- MnO4-2|1:Mn 4:O|-2.0
  ⟨n!"MnSO4(aq)", 483, n!"Aqueous|HKF|"⟩,  -- MnSO4|1:Mn 1:S 4:O|0.0
  ⟨n!"HMoO4-", 484, n!"Aqueous|HKF|"⟩,  -- HMoO4-|1:H 1:Mo 4:O|-1.0
  ⟨n!"MoO4-2", 485, n!"Aqueous|HKF|"⟩,  -- MoO4-2|1:Mo 4:O|-2.0
  ⟨n!"n-Butane(aq)", 267, n!"Aqueous|HKF|"⟩,  -- C4H10|4:C 10:H|0.0
  ⟨n!"Butanoate-", 486, n!"Aqueous|HKF|"⟩,  -- C4H7O2-|4:C 7:H 2:O|-1.0
  ⟨n!"n-Butylbenzene(aq)", 487, n!"Aqueous|HKF|"⟩,  -- C6H5C4H9|10:C 14:H|0.0
  ⟨n!"n-Heptane(aq)", 405, n!"Aqueous|HKF|"⟩,  -- C7H16|7:C 16:H|0.0
  ⟨n!"n-Heptylbenzene(aq)", 488, n!"Aqueous|HKF|"⟩,  -- C6H5C7H15|13:C 20:H|0.0
  ⟨n!"n-Hexane(aq)", 407, n!"Aqueous|HKF|"⟩,  -- C6H14|6:C 14:H|0.0
  ⟨n!"n-Hexylbenzene(aq)", 489, n!"Aqueous|HKF|"⟩,  -- C6H5C6H13|12:C 18:H|0.0
  ⟨n!"n-Octane(aq)", 490, n!"Aqueous|HKF|"⟩,  -- C8H18|8:C 18:H|0.0
  ⟨n!"n-Octylbenzene(aq)", 491, n!"Aqueous|HKF|"⟩,  -- C6H5C8H17|14:C 22:H|0.0
  ⟨n!"n-Pentane(aq)", 492, n!"Aqueous|HKF|"⟩,  -- C5H12|5:C 12:H|0.0
  ⟨n!"n-Pentylbenzene(aq)", 493, n!"Aqueous|HKF|"⟩,  -- C6H5C5H11|11:C 16:H|0.0
  ⟨n!"n-Propylbenzene(aq)", 494, n!"Aqueous|HKF|"⟩,  -- C6H5C3H7|9:C 12:H|0.0
  ⟨n!"N2(aq)", 495, n!"Aqueous|HKF|"⟩,  -- N2|2:N|0.0
  ⟨n!"NH3(aq)", 496, n!"Aqueous|HKF|"⟩,  -- NH3|1:N 3:H|0.0
  ⟨n!"NH4+", 497, n!"Aqueous|HKF|"⟩,  -- NH4+|1:N 4:H|1.0
  ⟨n!"NO2-", 498, n!"Aqueous|HKF|"⟩,  -- NO2-|1:N 2:O|-1.0
  ⟨n!"NO3-", 499, n!"Aqueous|HKF|"⟩]  -- NO3-|1:N 3:O|-1.0

/-- `supcrt07.yaml:10332-12153`. -/
def part6 : List Row := [
  ⟨n!"Nonanoate-", 500, n!"Aqueous|HKF|"⟩,  -- C9H17O2-|9:C 17:H 2:O|-1.0
  ⟨n!"Nonanoic-Acid(aq)", 501, n!"Aqueous|HKF|"⟩,  -- C9H18O2|9:C 18:H 2:O|0.0
  ⟨n!"Na+", 502, n!"Aqueous|HKF|"⟩,  -- Na+|1:Na|1.0
  ⟨n!"NaBr(aq)", 503, n!"Aqueous|HKF|"⟩,  -- NaBr|1:Na 1:Br|0.0
  ⟨n!"NaCl(aq)", 504, n!"Aqueous|HKF|"⟩,  -- NaCl|1:Na 1:Cl|0.0
  ⟨n!"NaF(aq)", 505, n!"Aqueous|HKF|"⟩,  -- NaF|1:Na 1:F|0.0
  ⟨n!"NaHSiO3(aq)", 506, n!"Aqueous|HKF|"⟩,  -- NaHSiO3|1:Na 1:H 1:Si 3:O|0.0
  ⟨n!"NaI(aq)", 507, n!"Aqueous|HKF|"⟩,  -- NaI|1:Na 1:I|0.0
  ⟨n!"NaOH(aq)", 508, n!"Aqueous|HKF|"⟩,  -- NaOH|1:Na 1:O 1:H|0.0
  ⟨n!"Nd+2", 509, n!"Aqueous|HKF|"⟩,  -- Nd+2|1:Nd|2.0
  ⟨n!"Nd+3", 510, n!"Aqueous|HKF|"⟩,  -- Nd+3|1:Nd|3.0
  ⟨n!"Nd+4", 511, n!"Aqueous|HKF|"⟩,  -- Nd+4|1:Nd|4.0
  ⟨n!"Ne(aq)", 512, n!"Aqueous|HKF|"⟩,  -- Ne|1:Ne|0.0
  ⟨n!"Ni+2", 513, n!"Aqueous|HKF|"⟩,  -- Ni+2|1:Ni|2.0
  ⟨n!"NiCl+", 514, n!"Aqueous|HKF|"⟩,  -- NiCl+|1:Ni 1:Cl|1.0
  ⟨n!"NiOH+", 515, n!"Aqueous|HKF|"⟩,  -- NiOH+|1:Ni 1:O 1:H|1.0
  ⟨n!"NiO(aq)", 516, n!"Aqueous|HKF|"⟩,  -- NiO|1:Ni 1:O|0.0
  ⟨n!"HNiO2-", 517, n!"Aqueous|HKF|"⟩,  -- HNiO2-|1:H 1:Ni 2:O|-1.0
  ⟨n!"NiO2-2", 518, n!"Aqueous|HKF|"⟩,  -- NiO2-2|1:Ni 2:O|-2.0
  ⟨n!"o-Toluate-", 461, n!"Aqueous|HKF|"⟩,  -- C8H7O2-|8:C 7:H 2:O|-1.0
  ⟨n!"o-Toluic-Acid(aq)", 462, n!"Aqueous|HKF|"⟩,  -- C8H8O2|8:C 8:H 2:O|0.0
  ⟨n!"O2(aq)", 519, n!"Aqueous|HKF|"⟩,  -- O2|2:O|0.0
  ⟨n!"Octane(aq)", 490, n!"Aqueous|HKF|"⟩,  -- C8H18|8:C 18:H|0.0
  ⟨n!"Octanoate-", 520, n!"Aqueous|HKF|"⟩,  -- C8H15O2-|8:C 15:H 2:O|-1.0
  ⟨n!"Octanoic-Acid(aq)", 521, n!"Aqueous|HKF|"⟩,  -- C8H16O2|8:C 16:H 2:O|0.0
  ⟨n!"OH-", 522, n!"Aqueous|HKF|"⟩,  -- OH-|1:O 1:H|-1.0
  ⟨n!"Oxalate-2", 523, n!"Aqueous|HKF|"⟩,  -- C2O4-2|2:C 4:O|-2.0
  ⟨n!"Oxalic-Acid(aq)", 524, n!"Aqueous|HKF|"⟩,  -- C2H2O4|2:C 2:H 4:O|0.0
  ⟨n!"p-Toluate-", 461, n!"Aqueous|HKF|"⟩,  -- C8H7O2-|8:C 7:H 2:O|-1.0
  ⟨n!"p-Toluic-Acid(aq)", 462, n!"Aqueous|HKF|"⟩,  -- C8H8O2|8:C 8:H 2:O|0.0
  ⟨n!"Pentane(aq)", 492, n!"Aqueous|HKF|"⟩,  -- C5H12|5:C 12:H|0.0
  ⟨n!"Pentanoate-", 525, n!"Aqueous|HKF|"⟩,  -- C5H9O2-|5:C 9:H 2:O|-1.0
  ⟨n!"Pentanoic-Acid(aq)", 526, n!"Aqueous|HKF|"⟩,  -- C5H10O2|5:C 10:H 2:O|0.0
  ⟨n!"Phenol(aq)", 527, n!"Aqueous|HKF|"⟩,  -- C6H5OH|6:C 6:H 1:O|0.0
  ⟨n!"Phenylalanine(aq)", 528, n!"Aqueous|HKF|"⟩,  -- C9H11NO2|9:C 11:H 2:O 1:N|0.0
  ⟨n!"Pimelate-2", 529, n!"Aqueous|HKF|"⟩,  -- C7H10O4-2|7:C 10:H 4:O|-2.0
  ⟨n!"Pimelic-Acid(aq)", 530, n!"Aqueous|HKF|"⟩,  -- C7H12O4|7:C 12:H 4:O|0.0
  ⟨n!"PO4-3", 531, n!"Aqueous|HKF|"⟩,  -- PO4-3|1:P 4:O|-3.0
  ⟨n!"Proline(aq)", 1554, n!"Aqueous|HKF|"⟩,  -- C5H9NO2|5:C 9:H 2:O 1:N|0.0
  ⟨n!"Propane(aq)", 532, n!"Aqueous|HKF|"⟩,  -- C3H8|3:C 8:H|0.0
  ⟨n!"Propanamine(aq)", 206, n!"Aqueous|HKF|"⟩,  -- C3H7NH2|3:C 9:H 1:N|0.0
  ⟨n!"Propanoate-", 533, n!"Aqueous|HKF|"⟩,  -- C3H5O2-|3:C 5:H 2:O|-1.0
  ⟨n!"Propanoic-Acid(aq)", 534, n!"Aqueous|HKF|"⟩,  -- C3H6O2|3:C 6:H 2:O|0.0
  ⟨n!"Propanol(aq)", 207, n!"Aqueous|HKF|"⟩,  -- C3H7OH|3:C 8:H 1:O|0.0
  ⟨n!"Pb+2", 535, n!"Aqueous|HKF|"⟩,  -- Pb+2|1:Pb|2.0
  ⟨n!"PbCl+", 536, n!"Aqueous|HKF|"⟩,  -- PbCl+|1:Pb 1:Cl|1.0
  ⟨n!"PbCl2(aq)", 537, n!"Aqueous|HKF|"⟩,  -- PbCl2|1:Pb 2:Cl|0.0
  ⟨n!"PbCl3-", 538, n!"Aqueous|HKF|"⟩,  -- PbCl3-|1:Pb 3:Cl|-1.0
  ⟨n!"PbCl4-2", 539, n!"Aqueous|HKF|"⟩,  -- PbCl4-2|1:Pb 4:Cl|-2.0
  ⟨n!"PbOH+", 540, n!"Aqueous|HKF|"⟩,  -- PbOH+|1:Pb 1:O 1:H|1.0
  ⟨n!"PbO(aq)", 541, n!"Aqueous|HKF|"⟩,  -- PbO|1:Pb 1:O|0.0
  ⟨n!"HPbO2-", 542, n!"Aqueous|HKF|"⟩,  -- HPbO2-|1:H 1:Pb 2:O|-1.0
  ⟨n!"Pd(OH)+", 543, n!"Aqueous|HKF|"⟩,  -- Pd(OH)+|1:Pd 1:O 1:H|1.0
  ⟨n!"PdSO4(aq)", 544, n!"Aqueous|HKF|"⟩,  -- Pd(SO4)|1:Pd 1:S 4:O|0.0
  ⟨n!"Pd(SO4)2-2", 545, n!"Aqueous|HKF|"⟩,  -- Pd(SO4)2-2|1:Pd 2:S 8:O|-2.0
  ⟨n!"Pd(SO4)3-4", 546, n!"Aqueous|HKF|"⟩,  -- Pd(SO4)3-4|1:Pd 3:S 12:O|-4.0
  ⟨n!"Pd+2", 547, n!"Aqueous|HKF|"⟩,  -- Pd+2|1:Pd|2.0
  ⟨n!"PdCl+", 548, n!"Aqueous|HKF|"⟩,  -- PdCl+|1:Pd 1:Cl|1.0
  ⟨n!"PdCl2(aq)", 549, n!"Aqueous|HKF|"⟩,  -- PdCl2|1:Pd 2:Cl|0.0
  ⟨n!"PdCl3-", 550, n!"Aqueous|HKF|"⟩,  -- PdCl3-|1:Pd 3:Cl|-1.0
  ⟨n!"PdCl4-2", 551, n!"Aqueous|HKF|"⟩,  -- PdCl4-2|1:Pd 4:Cl|-2.0
  ⟨n!"PdO(aq)", 552, n!"Aqueous|HKF|"⟩,  -- PdO|1:Pd 1:O|0.0
  ⟨n!"Pr+2", 553, n!"Aqueous|HKF|"⟩,  -- Pr+2|1:Pr|2.0
  ⟨n!"Pr+3", 554, n!"Aqueous|HKF|"⟩,  -- Pr+3|1:Pr|3.0
  ⟨n!"Pr+4", 555, n!"Aqueous|HKF|"⟩,  -- Pr+4|1:Pr|4.0
  ⟨n!"Pt(OH)+", 556, n!"Aqueous|HKF|"⟩,  -- Pt(OH)+|1:Pt 1:O 1:H|1.0
  ⟨n!"PtSO4(aq)", 557, n!"Aqueous|HKF|"⟩,  -- Pt(SO4)|1:Pt 1:S 4:O|0.0
  ⟨n!"Pt(SO4)2-2", 558, n!"Aqueous|HKF|"⟩,  -- Pt(SO4)2-2|1:Pt 2:S 8:O|-2.0
  ⟨n!"Pt(SO4)3-4", 559, n!"Aqueous|HKF|"⟩,  -- Pt(SO4)3-4|1:Pt 3:S 12:O|-4.0
  ⟨n!"Pt+2", 560, n!"Aqueous|HKF|"⟩,  -- Pt+2|1:Pt|2.0
  ⟨n!"PtCl+", 561, n!"Aqueous|HKF|"⟩,  -- PtCl+|1:Pt 1:Cl|1.0
  ⟨n!"PtCl2(aq)", 562, n!"Aqueous|HKF|"⟩,  -- PtCl2|1:Pt 2:Cl|0.0
  ⟨n!"PtCl3-", 563, n!"Aqueous|HKF|"⟩,  -- PtCl3-|1:Pt 3:Cl|-1.0
  ⟨n!"PtCl4-2", 564, n!"Aqueous|HKF|"⟩,  -- PtCl4-2|1:Pt 4:Cl|-2.0
  ⟨n!"PtO(aq)", 565, n!"Aqueous|HKF|"⟩,  -- PtO|1:Pt 1:O|0.0
  ⟨n!"Ra+2", 566, n!"Aqueous|HKF|"⟩,  -- Ra+2|1:Ra|2.0
  ⟨n!"Rb+", 567, n!"Aqueous|HKF|"⟩,  -- Rb+|1:Rb|1.0
  ⟨n!"RbBr(aq)", 568, n!"Aqueous|HKF|"⟩,  -- RbBr|1:Rb 1:Br|0.0
  ⟨n!"RbCl(aq)", 569, n!"Aqueous|HKF|"⟩,  -- RbCl|1:Rb 1:Cl|0.0
  ⟨n!"RbF(aq)", 570, n!"Aqueous|HKF|"⟩,  -- RbF|1:Rb 1:F|0.0
  ⟨n!"RbI(aq)", 571, n!"Aqueous|HKF|"⟩,  -- RbI|1:Rb 1:I|0.0
  ⟨n!"RbOH(aq)", 572, n!"Aqueous|HKF|"⟩,  -- RbOH|1:Rb 1:O 1:H|0.0
  ⟨n!"ReO4-", 573, n!"Aqueous|HKF|"⟩,  -- ReO4-|1:Re 4:O|-1.0
  ⟨n!"Rh(OH)+", 574, n!"Aqueous|HKF|"⟩,  -- Rh(OH)+|1:Rh 1:O 1:H|1.0
  ⟨n!"RhOH+2", 575, n!"Aqueous|HKF|"⟩,  -- Rh(OH)+2|1:Rh 1:O 1:H|2.0
  ⟨n!"RhSO4(aq)", 576, n!"Aqueous|HKF|"⟩,  -- Rh(SO4)|1:Rh 1:S 4:O|0.0
  ⟨n!"RhSO4+", 577, n!"Aqueous|HKF|"⟩,  -- Rh(SO4)+|1:Rh 1:S 4:O|1.0
  ⟨n!"Rh(SO4)2-", 578, n!"Aqueous|HKF|"⟩,  -- Rh(SO4)2-|1:Rh 2:S 8:O|-1.0
  ⟨n!"Rh(SO4)2-2", 579, n!"Aqueous|HKF|"⟩,  -- Rh(SO4)2-2|1:Rh 2:S 8:O|-2.0
  ⟨n!"Rh(SO4)3-3", 580, n!"Aqueous|HKF|"⟩,  -- Rh(SO4)3-3|1:Rh 3:S 12:O|-3.0
  ⟨n!"Rh(SO4)3-4", 581, n!"Aqueous|HKF|"⟩,  -- Rh(SO4)3-4|1:Rh 3:S 12:O|-4.0
  ⟨n!"Rh+2", 582, n!"Aqueous|HKF|"⟩,  -- Rh+2|1:Rh|2.0
  ⟨n!"Rh+3", 583, n!"Aqueous|HKF|"⟩,  -- Rh+3|1:Rh|3.0
  ⟨n!"RhCl+", 584, n!"Aqueous|HKF|"⟩,  -- RhCl+|1:Rh 1:Cl|1.0
  ⟨n!"RhCl+2", 585, n!"Aqueous|HKF|"⟩,  -- RhCl+2|1:Rh 1:Cl|2.0
  ⟨n!"RhCl2(aq)", 586, n!"Aqueous|HKF|"⟩,  -- RhCl2|1:Rh 2:Cl|0.0
  ⟨n!"RhCl2+", 587, n!"Aqueous|HKF|"⟩,  -- RhCl2+|1:Rh 2:Cl|1.0
  ⟨n!"RhCl3(aq)", 588, n!"Aqueous|HKF|"⟩,  -- RhCl3|1:Rh 3:Cl|0.0
  ⟨n!"RhCl3-", 589, n!"Aqueous|HKF|"⟩,  -- RhCl3-|1:Rh 3:Cl|-1.0
  ⟨n!"RhCl4-", 590, n!"Aqueous|HKF|"⟩]  -- RhCl4-|1:Rh 4:Cl|-1.0

/-- `supcrt07.yaml:12154-13968`. -/
def part7 : List Row := [
  ⟨n!"RhCl4-2", 591, n!"Aqueous|HKF|"⟩,  -- RhCl4-2|1:Rh 4:Cl|-2.0
  ⟨n!"RhO(aq)", 592, n!"Aqueous|HKF|"⟩,  -- RhO|1:Rh 1:O|0.0
  ⟨n!"RhO+", 593, n!"Aqueous|HKF|"⟩,  -- RhO+|1:Rh 1:O|1.0
  ⟨n!"Rn(aq)", 594, n!"Aqueous|HKF|"⟩,  -- Rn|1:Rn|0.0
  ⟨n!"Ru(OH)+", 595, n!"Aqueous|HKF|"⟩,  -- Ru(OH)+|1:Ru 1:O 1:H|1.0
  ⟨n!"RuOH+2", 596, n!"Aqueous|HKF|"⟩,  -- Ru(OH)+2|1:Ru 1:O 1:H|2.0
  ⟨n!"RuO4-2", 597, n!"Aqueous|HKF|"⟩,  -- RuO4-2|1:Ru 4:O|-2.0
  ⟨n!"RuSO4(aq)", 598, n!"Aqueous|HKF|"⟩,  -- Ru(SO4)|1:Ru 1:S 4:O|0.0
  ⟨n!"RuSO4+", 599, n!"Aqueous|HKF|"⟩,  -- Ru(SO4)+|1:Ru 1:S 4:O|1.0
  ⟨n!"Ru(SO4)2-", 600, n!"Aqueous|HKF|"⟩,  -- Ru(SO4)2-|1:Ru 2:S 8:O|-1.0
  ⟨n!"Ru(SO4)2-2", 601, n!"Aqueous|HKF|"⟩,  -- Ru(SO4)2-2|1:Ru 2:S 8:O|-2.0
  ⟨n!"Ru(SO4)3-3", 602, n!"Aqueous|HKF|"⟩,  -- Ru(SO4)3-3|1:Ru 3:S 12:O|-3.0
  ⟨n!"Ru(SO4)3-4", 603, n!"Aqueous|HKF|"⟩,  -- Ru(SO4)3-4|1:Ru 3:S 12:O|-4.0
  ⟨n!"Ru+2", 604, n!"Aqueous|HKF|"⟩,  -- Ru+2|1:Ru|2.0
  ⟨n!"Ru+3", 605, n!"Aqueous|HKF|"⟩,  -- Ru+3|1:Ru|3.0
  ⟨n!"RuCl+", 606, n!"Aqueous|HKF|"⟩,  -- RuCl+|1:Ru 1:Cl|1.0
  ⟨n!"RuCl+2", 607, n!"Aqueous|HKF|"⟩,  -- RuCl+2|1:Ru 1:Cl|2.0
  ⟨n!"RuCl2(aq)", 608, n!"Aqueous|HKF|"⟩,  -- RuCl2|1:Ru 2:Cl|0.0
  ⟨n!"RuCl2+", 609, n!"Aqueous|HKF|"⟩,  -- RuCl2+|1:Ru 2:Cl|1.0
  ⟨n!"RuCl3(aq)", 610, n!"Aqueous|HKF|"⟩,  -- RuCl3|1:Ru 3:Cl|0.0
  ⟨n!"RuCl3-", 611, n!"Aqueous|HKF|"⟩,  -- RuCl3-|1:Ru 3:Cl|-1.0
  ⟨n!"RuCl4-", 612, n!"Aqueous|HKF|"⟩,  -- RuCl4-|1:Ru 4:Cl|-1.0
  ⟨n!"RuCl4-2", 613, n!"Aqueous|HKF|"⟩,  -- RuCl4-2|1:Ru 4:Cl|-2.0
  ⟨n!"RuCl5-2", 614, n!"Aqueous|HKF|"⟩,  -- RuCl5-2|1:Ru 5:Cl|-2.0
  ⟨n!"RuCl6-3", 615, n!"Aqueous|HKF|"⟩,  -- RuCl6-3|1:Ru 6:Cl|-3.0
  ⟨n!"RuO(aq)", 616, n!"Aqueous|HKF|"⟩,  -- RuO|1:Ru 1:O|0.0
  ⟨n!"RuO+", 617, n!"Aqueous|HKF|"⟩,  -- RuO+|1:Ru 1:O|1.0
  ⟨n!"S2-2", 618, n!"Aqueous|HKF|"⟩,  -- S2-2|2:S|-2.0
  ⟨n!"S2O3-2", 619, n!"Aqueous|HKF|"⟩,  -- S2O3-2|2:S 3:O|-2.0
  ⟨n!"HS2O3-", 620, n!"Aqueous|HKF|"⟩,  -- HS2O3-|1:H 2:S 3:O|-1.0
  ⟨n!"H2S2O3(aq)", 621, n!"Aqueous|HKF|"⟩,  -- H2S2O3|2:H 2:S 3:O|0.0
  ⟨n!"S2O4-2", 622, n!"Aqueous|HKF|"⟩,  -- S2O4-2|2:S 4:O|-2.0
  ⟨n!"HS2O4-", 623, n!"Aqueous|HKF|"⟩,  -- HS2O4-|1:H 2:S 4:O|-1.0
  ⟨n!"H2S2O4(aq)", 624, n!"Aqueous|HKF|"⟩,  -- H2S2O4|2:H 2:S 4:O|0.0
  ⟨n!"S2O5-2", 625, n!"Aqueous|HKF|"⟩,  -- S2O5-2|2:S 5:O|-2.0
  ⟨n!"S2O6-2", 626, n!"Aqueous|HKF|"⟩,  -- S2O6-2|2:S 6:O|-2.0
  ⟨n!"S2O8-2", 627, n!"Aqueous|HKF|"⟩,  -- S2O8-2|2:S 8:O|-2.0
  ⟨n!"S3-2", 628, n!"Aqueous|HKF|"⟩,  -- S3-2|3:S|-2.0
  ⟨n!"S3O6-2", 629, n!"Aqueous|HKF|"⟩,  -- S3O6-2|3:S 6:O|-2.0
  ⟨n!"S4-2", 630, n!"Aqueous|HKF|"⟩,  -- S4-2|4:S|-2.0
  ⟨n!"S4O6-2", 631, n!"Aqueous|HKF|"⟩,  -- S4O6-2|4:S 6:O|-2.0
  ⟨n!"S5-2", 632, n!"Aqueous|HKF|"⟩,  -- S5-2|5:S|-2.0
  ⟨n!"S5O6-2", 633, n!"Aqueous|HKF|"⟩,  -- S5O6-2|5:S 6:O|-2.0
  ⟨n!"Sebacate-2", 634, n!"Aqueous|HKF|"⟩,  -- C10H16O4-2|10:C 16:H 4:O|-2.0
  ⟨n!"Sebacic-Acid(aq)", 635, n!"Aqueous|HKF|"⟩,  -- C10H18O4|10:C 18:H 4:O|0.0
  ⟨n!"Serine(aq)", 636, n!"Aqueous|HKF|"⟩,  -- C3H7NO3|3:C 7:H 3:O 1:N|0.0
  ⟨n!"SO2(aq)", 637, n!"Aqueous|HKF|"⟩,  -- SO2|1:S 2:O|0.0
  ⟨n!"SO3-2", 638, n!"Aqueous|HKF|"⟩,  -- SO3-2|1:S 3:O|-2.0
  ⟨n!"SO4-2", 639, n!"Aqueous|HKF|"⟩,  -- SO4-2|1:S 4:O|-2.0
  ⟨n!"Suberate-2", 640, n!"Aqueous|HKF|"⟩,  -- C8H12O4-2|8:C 12:H 4:O|-2.0
  ⟨n!"Suberic-Acid(aq)", 641, n!"Aqueous|HKF|"⟩,  -- C8H14O4|8:C 14:H 4:O|0.0
  ⟨n!"Succinate-2", 642, n!"Aqueous|HKF|"⟩,  -- C4H4O4-2|4:C 4:H 4:O|-2.0
  ⟨n!"Succinic-Acid(aq)", 643, n!"Aqueous|HKF|"⟩,  -- C4H6O4|4:C 6:H 4:O|0.0
  ⟨n!"Sc+3", 644, n!"Aqueous|HKF|"⟩,  -- Sc+3|1:Sc|3.0
  ⟨n!"ScOH+2", 645, n!"Aqueous|HKF|"⟩,  -- ScOH+2|1:Sc 1:O 1:H|2.0
  ⟨n!"ScO+", 646, n!"Aqueous|HKF|"⟩,  -- ScO+|1:Sc 1:O|1.0
  ⟨n!"HScO2(aq)", 647, n!"Aqueous|HKF|"⟩,  -- HScO2|1:H 1:Sc 2:O|0.0
  ⟨n!"ScO2-", 648, n!"Aqueous|HKF|"⟩,  -- ScO2-|1:Sc 2:O|-1.0
  ⟨n!"SeO3-2", 649, n!"Aqueous|HKF|"⟩,  -- SeO3-2|1:Se 3:O|-2.0
  ⟨n!"SeO4-2", 650, n!"Aqueous|HKF|"⟩,  -- SeO4-2|1:Se 4:O|-2.0
  ⟨n!"SiF6-2", 651, n!"Aqueous|HKF|"⟩,  -- SiF6-2|1:Si 6:F|-2.0
  ⟨n!"SiO2(aq)", 652, n!"Aqueous|HKF|"⟩,  -- SiO2|1:Si 2:O|0.0
  ⟨n!"Sm+2", 653, n!"Aqueous|HKF|"⟩,  -- Sm+2|1:Sm|2.0
  ⟨n!"Sm+3", 654, n!"Aqueous|HKF|"⟩,  -- Sm+3|1:Sm|3.0
  ⟨n!"Sm+4", 655, n!"Aqueous|HKF|"⟩,  -- Sm+4|1:Sm|4.0
  ⟨n!"Sn+2", 656, n!"Aqueous|HKF|"⟩,  -- Sn+2|1:Sn|2.0
  ⟨n!"SnO(aq)", 657, n!"Aqueous|HKF|"⟩,  -- SnO|1:Sn 1:O|0.0
  ⟨n!"SnOH+", 658, n!"Aqueous|HKF|"⟩,  -- SnOH+|1:Sn 1:O 1:H|1.0
  ⟨n!"HSnO2-", 659, n!"Aqueous|HKF|"⟩,  -- HSnO2-|1:H 1:Sn 2:O|-1.0
  ⟨n!"Sr(HCO3)+", 660, n!"Aqueous|HKF|"⟩,  -- Sr(HCO3)+|1:Sr 1:H 1:C 3:O|1.0
  ⟨n!"Sr+2", 661, n!"Aqueous|HKF|"⟩,  -- Sr+2|1:Sr|2.0
  ⟨n!"SrCl+", 662, n!"Aqueous|HKF|"⟩,  -- SrCl+|1:Sr 1:Cl|1.0
  ⟨n!"SrF+", 663, n!"Aqueous|HKF|"⟩,  -- SrF+|1:Sr 1:F|1.0
  ⟨n!"SrOH+", 664, n!"Aqueous|HKF|"⟩,  -- SrOH+|1:Sr 1:O 1:H|1.0
  ⟨n!"Threonine(aq)", 665, n!"Aqueous|HKF|"⟩,  -- C4H9NO3|4:C 9:H 3:O 1:N|0.0
  ⟨n!"Toluene(aq)", 666, n!"Aqueous|HKF|"⟩,  -- C6H5CH3|7:C 8:H|0.0
  ⟨n!"Tryptophan(aq)", 667, n!"Aqueous|HKF|"⟩,  -- C11H12N2O2|11:C 12:H 2:O 2:N|0.0
  ⟨n!"Tyrosine(aq)", 668, n!"Aqueous|HKF|"⟩,  -- C9H11NO3|9:C 11:H 3:O 1:N|0.0
  ⟨n!"Tyrosine-", 1555, n!"Aqueous|HKF|"⟩,  -- C9H10NO3-|9:C 10:H 3:O 1:N|-1.0
  ⟨n!"Tb+2", 669, n!"Aqueous|HKF|"⟩,  -- Tb+2|1:Tb|2.0
  ⟨n!"Tb+3", 670, n!"Aqueous|HKF|"⟩,  -- Tb+3|1:Tb|3.0
  ⟨n!"Tb+4", 671, n!"Aqueous|HKF|"⟩,  -- Tb+4|1:Tb|4.0
  ⟨n!"Th+4", 672, n!"Aqueous|HKF|"⟩,  -- Th+4|1:Th|4.0
  ⟨n!"Tl+", 673, n!"Aqueous|HKF|"⟩,  -- Tl+|1:Tl|1.0
  ⟨n!"Tl+3", 674, n!"Aqueous|HKF|"⟩,  -- Tl+3|1:Tl|3.0
  ⟨n!"TlOH(aq)", 675, n!"Aqueous|HKF|"⟩,  -- TlOH|1:Tl 1:O 1:H|0.0
  ⟨n!"TlOH+2", 676, n!"Aqueous|HKF|"⟩,  -- TlOH+2|1:Tl 1:O 1:H|2.0
  ⟨n!"TlO+", 677, n!"Aqueous|HKF|"⟩,  -- TlO+|1:Tl 1:O|1.0
  ⟨n!"HTlO2(aq)", 678, n!"Aqueous|HKF|"⟩,  -- HTlO2|1:H 1:Tl 2:O|0.0
  ⟨n!"TlO2-", 679, n!"Aqueous|HKF|"⟩,  -- TlO2-|1:Tl 2:O|-1.0
  ⟨n!"Tm+2", 680, n!"Aqueous|HKF|"⟩,  -- Tm+2|1:Tm|2.0
  ⟨n!"Tm+3", 681, n!"Aqueous|HKF|"⟩,  -- Tm+3|1:Tm|3.0
  ⟨n!"Tm+4", 682, n!"Aqueous|HKF|"⟩,  -- Tm+4|1:Tm|4.0
  ⟨n!"Undecanoate-", 683, n!"Aqueous|HKF|"⟩,  -- C11H21O2-|11:C 21:H 2:O|-1.0
  ⟨n!"Undecanoic-Acid(aq)", 684, n!"Aqueous|HKF|"⟩,  -- C11H22O2|11:C 22:H 2:O|0.0
  ⟨n!"Urea(aq)", 685, n!"Aqueous|HKF|"⟩,  -- H2NCONH2|4:H 2:N 1:C 1:O|0.0
  ⟨n!"U+3", 686, n!"Aqueous|HKF|"⟩,  -- U+3|1:U|3.0
  ⟨n!"U+4", 687, n!"Aqueous|HKF|"⟩,  -- U+4|1:U|4.0
  ⟨n!"UO2+", 688, n!"Aqueous|HKF|"⟩,  -- UO2+|1:U 2:O|1.0
  ⟨n!"UO2+2", 689, n!"Aqueous|HKF|"⟩]  -- UO2+2|1:U 2:O|2.0

/-- `supcrt07.yaml:13969-15842`. -/
def part8 : List Row := [
  ⟨n!"UO2-", 1556, n!"Aqueous|HKF|"⟩,  -- UO2-|1:U 2:O|-1.0
  ⟨n!"Valine(aq)", 690, n!"Aqueous|HKF|"⟩,  -- C5H11NO2|5:C 11:H 2:O 1:N|0.0
  ⟨n!"VO+", 691, n!"Aqueous|HKF|"⟩,  -- VO+|1:V 1:O|1.0
  ⟨n!"VO+2", 692, n!"Aqueous|HKF|"⟩,  -- VO+2|1:V 1:O|2.0
  ⟨n!"VOH+", 693, n!"Aqueous|HKF|"⟩,  -- VOH+|1:V 1:O 1:H|1.0
  ⟨n!"VOH+2", 694, n!"Aqueous|HKF|"⟩,  -- VOH+2|1:V 1:O 1:H|2.0
  ⟨n!"VO2+", 695, n!"Aqueous|HKF|"⟩,  -- VO2+|1:V 2:O|1.0
  ⟨n!"VOOH+", 696, n!"Aqueous|HKF|"⟩,  -- VOOH+|1:V 2:O 1:H|1.0
  ⟨n!"WO4-2", 697, n!"Aqueous|HKF|"⟩,  -- WO4-2|1:W 4:O|-2.0
  ⟨n!"HWO4-", 698, n!"Aqueous|HKF|"⟩,  -- HWO4-|1:H 1:W 4:O|-1.0
  ⟨n!"Xe(aq)", 699, n!"Aqueous|HKF|"⟩,  -- Xe|1:Xe|0.0
  ⟨n!"Y+3", 700, n!"Aqueous|HKF|"⟩,  -- Y+3|1:Y|3.0
  ⟨n!"YOH+2", 701, n!"Aqueous|HKF|"⟩,  -- YOH+2|1:Y 1:O 1:H|2.0
  ⟨n!"YO+", 702, n!"Aqueous|HKF|"⟩,  -- YO+|1:Y 1:O|1.0
  ⟨n!"HYO2(aq)", 703, n!"Aqueous|HKF|"⟩,  -- HYO2|1:H 1:Y 2:O|0.0
  ⟨n!"YO2-", 704, n!"Aqueous|HKF|"⟩,  -- YO2-|1:Y 2:O|-1.0
  ⟨n!"Yb+2", 705, n!"Aqueous|HKF|"⟩,  -- Yb+2|1:Yb|2.0
  ⟨n!"Yb+3", 706, n!"Aqueous|HKF|"⟩,  -- Yb+3|1:Yb|3.0
  ⟨n!"Yb+4", 707, n!"Aqueous|HKF|"⟩,  -- Yb+4|1:Yb|4.0
  ⟨n!"Zn+2", 708, n!"Aqueous|HKF|"⟩,  -- Zn+2|1:Zn|2.0
  ⟨n!"ZnCl+", 709, n!"Aqueous|HKF|"⟩,  -- ZnCl+|1:Zn 1:Cl|1.0
  ⟨n!"ZnCl2(aq)", 710, n!"Aqueous|HKF|"⟩,  -- ZnCl2|1:Zn 2:Cl|0.0
  ⟨n!"ZnCl3-", 711, n!"Aqueous|HKF|"⟩,  -- ZnCl3-|1:Zn 3:Cl|-1.0
  ⟨n!"ZnOH+", 712, n!"Aqueous|HKF|"⟩,  -- ZnOH+|1:Zn 1:O 1:H|1.0
  ⟨n!"ZnO(aq)", 713, n!"Aqueous|HKF|"⟩,  -- ZnO|1:Zn 1:O|0.0
  ⟨n!"HZnO2-", 714, n!"Aqueous|HKF|"⟩,  -- HZnO2-|1:H 1:Zn 2:O|-1.0
  ⟨n!"ZnO2-2", 715, n!"Aqueous|HKF|"⟩,  -- ZnO2-2|1:Zn 2:O|-2.0
  ⟨n!"Bi(Ac)+2", 716, n!"Aqueous|HKF|"⟩,  -- BiCH3COO+2|1:Bi 2:C 3:H 2:O|2.0
  ⟨n!"Bi(Ac)2+", 717, n!"Aqueous|HKF|"⟩,  -- Bi(CH3COO)2+|1:Bi 4:C 6:H 4:O|1.0
  ⟨n!"Bi(Ac)3(aq)", 718, n!"Aqueous|HKF|"⟩,  -- Bi(CH3COO)3|1:Bi 6:C 9:H 6:O|0.0
  ⟨n!"Dy(Ac)+2", 719, n!"Aqueous|HKF|"⟩,  -- DyCH3COO+2|1:Dy 2:C 3:H 2:O|2.0
  ⟨n!"Dy(Ac)2+", 720, n!"Aqueous|HKF|"⟩,  -- Dy(CH3COO)2+|1:Dy 4:C 6:H 4:O|1.0
  ⟨n!"Dy(Ac)3(aq)", 721, n!"Aqueous|HKF|"⟩,  -- Dy(CH3COO)3|1:Dy 6:C 9:H 6:O|0.0
  ⟨n!"Ho(Ac)+2", 722, n!"Aqueous|HKF|"⟩,  -- HoCH3COO+2|1:Ho 2:C 3:H 2:O|2.0
  ⟨n!"Ho(Ac)2+", 723, n!"Aqueous|HKF|"⟩,  -- Ho(CH3COO)2+|1:Ho 4:C 6:H 4:O|1.0
  ⟨n!"Ho(Ac)3(aq)", 724, n!"Aqueous|HKF|"⟩,  -- Ho(CH3COO)3|1:Ho 6:C 9:H 6:O|0.0
  ⟨n!"Er(Ac)+2", 725, n!"Aqueous|HKF|"⟩,  -- ErCH3COO+2|1:Er 2:C 3:H 2:O|2.0
  ⟨n!"Er(Ac)2+", 726, n!"Aqueous|HKF|"⟩,  -- Er(CH3COO)2+|1:Er 4:C 6:H 4:O|1.0
  ⟨n!"Er(Ac)3(aq)", 727, n!"Aqueous|HKF|"⟩,  -- Er(CH3COO)3|1:Er 6:C 9:H 6:O|0.0
  ⟨n!"Tm(Ac)+2", 728, n!"Aqueous|HKF|"⟩,  -- TmCH3COO+2|1:Tm 2:C 3:H 2:O|2.0
  ⟨n!"Tm(Ac)2+", 729, n!"Aqueous|HKF|"⟩,  -- Tm(CH3COO)2+|1:Tm 4:C 6:H 4:O|1.0
  ⟨n!"Tm(Ac)3(aq)", 730, n!"Aqueous|HKF|"⟩,  -- Tm(CH3COO)3|1:Tm 6:C 9:H 6:O|0.0
  ⟨n!"Be(Ac)+", 731, n!"Aqueous|HKF|"⟩,  -- BeCH3COO+|1:Be 2:C 3:H 2:O|1.0
  ⟨n!"Be(Ac)2(aq)", 732, n!"Aqueous|HKF|"⟩,  -- Be(CH3COO)2|1:Be 4:C 6:H 4:O|0.0
  ⟨n!"Ra(Ac)+", 733, n!"Aqueous|HKF|"⟩,  -- RaCH3COO+|1:Ra 2:C 3:H 2:O|1.0
  ⟨n!"Ra(Ac)2(aq)", 734, n!"Aqueous|HKF|"⟩,  -- Ra(CH3COO)2|1:Ra 4:C 6:H 4:O|0.0
  ⟨n!"Au(Ac)(aq)", 735, n!"Aqueous|HKF|"⟩,  -- AuCH3COO|1:Au 2:C 3:H 2:O|0.0
  ⟨n!"Au(Ac)2-", 736, n!"Aqueous|HKF|"⟩,  -- Au(CH3COO)2-|1:Au 4:C 6:H 4:O|-1.0
  ⟨n!"Li(Ac)(aq)", 737, n!"Aqueous|HKF|"⟩,  -- LiCH3COO|1:Li 2:C 3:H 2:O|0.0
  ⟨n!"Li(Ac)2-", 738, n!"Aqueous|HKF|"⟩,  -- Li(CH3COO)2-|1:Li 4:C 6:H 4:O|-1.0
  ⟨n!"Na(Ac)(aq)", 739, n!"Aqueous|HKF|"⟩,  -- NaCH3COO|1:Na 2:C 3:H 2:O|0.0
  ⟨n!"Na(Ac)2-", 740, n!"Aqueous|HKF|"⟩,  -- Na(CH3COO)2-|1:Na 4:C 6:H 4:O|-1.0
  ⟨n!"K(Ac)(aq)", 741, n!"Aqueous|HKF|"⟩,  -- KCH3COO|1:K 2:C 3:H 2:O|0.0
  ⟨n!"K(Ac)2-", 742, n!"Aqueous|HKF|"⟩,  -- K(CH3COO)2-|1:K 4:C 6:H 4:O|-1.0
  ⟨n!"Mg(Ac)+", 743, n!"Aqueous|HKF|"⟩,  -- MgCH3COO+|1:Mg 2:C 3:H 2:O|1.0
  ⟨n!"Mg(Ac)2(aq)", 744, n!"Aqueous|HKF|"⟩,  -- Mg(CH3COO)2|1:Mg 4:C 6:H 4:O|0.0
  ⟨n!"Sr(Ac)+", 745, n!"Aqueous|HKF|"⟩,  -- SrCH3COO+|1:Sr 2:C 3:H 2:O|1.0
  ⟨n!"Sr(Ac)2(aq)", 746, n!"Aqueous|HKF|"⟩,  -- Sr(CH3COO)2|1:Sr 4:C 6:H 4:O|0.0
  ⟨n!"Ba(Ac)+", 747, n!"Aqueous|HKF|"⟩,  -- BaCH3COO+|1:Ba 2:C 3:H 2:O|1.0
  ⟨n!"Ba(Ac)2(aq)", 748, n!"Aqueous|HKF|"⟩,  -- Ba(CH3COO)2|1:Ba 4:C 6:H 4:O|0.0
  ⟨n!"Cu(Ac)(aq)", 749, n!"Aqueous|HKF|"⟩,  -- CuCH3COO|1:Cu 2:C 3:H 2:O|0.0
  ⟨n!"Cu(Ac)2-", 750, n!"Aqueous|HKF|"⟩,  -- Cu(CH3COO)2-|1:Cu 4:C 6:H 4:O|-1.0
  ⟨n!"Rb(Ac)(aq)", 751, n!"Aqueous|HKF|"⟩,  -- RbCH3COO|1:Rb 2:C 3:H 2:O|0.0
  ⟨n!"Rb(Ac)2-", 752, n!"Aqueous|HKF|"⟩,  -- Rb(CH3COO)2-|1:Rb 4:C 6:H 4:O|-1.0
  ⟨n!"Tl(Ac)(aq)", 753, n!"Aqueous|HKF|"⟩,  -- TlCH3COO|1:Tl 2:C 3:H 2:O|0.0
  ⟨n!"Tl(Ac)2-", 754, n!"Aqueous|HKF|"⟩,  -- Tl(CH3COO)2-|1:Tl 4:C 6:H 4:O|-1.0
  ⟨n!"Cs(Ac)(aq)", 755, n!"Aqueous|HKF|"⟩,  -- CsCH3COO|1:Cs 2:C 3:H 2:O|0.0
  ⟨n!"Cs(Ac)2-", 756, n!"Aqueous|HKF|"⟩,  -- Cs(CH3COO)2-|1:Cs 4:C 6:H 4:O|-1.0
  ⟨n!"Pb(Ac)+", 757, n!"Aqueous|HKF|"⟩,  -- PbCH3COO+|1:Pb 2:C 3:H 2:O|1.0
  ⟨n!"Pb(Ac)2(aq)", 758, n!"Aqueous|HKF|"⟩,  -- Pb(CH3COO)2|1:Pb 4:C 6:H 4:O|0.0
  ⟨n!"Mn(Ac)+", 759, n!"Aqueous|HKF|"⟩,  -- MnCH3COO+|1:Mn 2:C 3:H 2:O|1.0
  ⟨n!"Mn(Ac)2(aq)", 760, n!"Aqueous|HKF|"⟩,  -- Mn(CH3COO)2|1:Mn 4:C 6:H 4:O|0.0
  ⟨n!"Mn(Ac)3-", 761, n!"Aqueous|HKF|"⟩,  -- Mn(CH3COO)3-|1:Mn 6:C 9:H 6:O|-1.0
  ⟨n!"Co(Ac)+", 762, n!"Aqueous|HKF|"⟩,  -- CoCH3COO+|1:Co 2:C 3:H 2:O|1.0
  ⟨n!"Co(Ac)2(aq)", 763, n!"Aqueous|HKF|"⟩,  -- Co(CH3COO)2|1:Co 4:C 6:H 4:O|0.0
  ⟨n!"Co(Ac)3-", 764, n!"Aqueous|HKF|"⟩,  -- Co(CH3COO)3-|1:Co 6:C 9:H 6:O|-1.0
  ⟨n!"Ni(Ac)+", 765, n!"Aqueous|HKF|"⟩,  -- NiCH3COO+|1:Ni 2:C 3:H 2:O|1.0
  ⟨n!"Ni(Ac)2(aq)", 766, n!"Aqueous|HKF|"⟩,  -- Ni(CH3COO)2|1:Ni 4:C 6:H 4:O|0.0
  ⟨n!"Ni(Ac)3-", 767, n!"Aqueous|HKF|"⟩,  -- Ni(CH3COO)3-|1:Ni 6:C 9:H 6:O|-1.0
  ⟨n!"Cu(Ac)+", 768, n!"Aqueous|HKF|"⟩,  -- CuCH3COO+|1:Cu 2:C 3:H 2:O|1.0
  ⟨n!"Cu(Ac)2(aq)", 769, n!"Aqueous|HKF|"⟩,  -- Cu(CH3COO)2|1:Cu 4:C 6:H 4:O|0.0
  ⟨n!"Cu(Ac)3-", 770, n!"Aqueous|HKF|"⟩,  -- Cu(CH3COO)3-|1:Cu 6:C 9:H 6:O|-1.0
  ⟨n!"NH4(Ac)(aq)", 771, n!"Aqueous|HKF|"⟩,  -- NH4CH3COO|1:N 2:C 7:H 2:O|0.0
  ⟨n!"NH4(Ac)2-", 772, n!"Aqueous|HKF|"⟩,  -- NH4(CH3COO)2-|1:N 4:C 10:H 4:O|-1.0
  ⟨n!"UO2(Ac)+", 773, n!"Aqueous|HKF|"⟩,  -- UO2CH3COO+|1:U 2:C 3:H 4:O|1.0
  ⟨n!"UO2(Ac)2(aq)", 774, n!"Aqueous|HKF|"⟩,  -- UO2(CH3COO)2|1:U 4:C 6:H 6:O|0.0
  ⟨n!"UO2(Ac)3-", 775, n!"Aqueous|HKF|"⟩,  -- UO2(CH3COO)3-|1:U 6:C 9:H 8:O|-1.0
  ⟨n!"Ag(Ac)(aq)", 776, n!"Aqueous|HKF|"⟩,  -- AgCH3COO|1:Ag 2:C 3:H 2:O|0.0
  ⟨n!"Ag(Ac)2-", 777, n!"Aqueous|HKF|"⟩,  -- Ag(CH3COO)2-|1:Ag 4:C 6:H 4:O|-1.0
  ⟨n!"Cd(Ac)+", 778, n!"Aqueous|HKF|"⟩,  -- CdCH3COO+|1:Cd 2:C 3:H 2:O|1.0
  ⟨n!"Cd(Ac)2(aq)", 779, n!"Aqueous|HKF|"⟩,  -- Cd(CH3COO)2|1:Cd 4:C 6:H 4:O|0.0
  ⟨n!"Cd(Ac)3-", 780, n!"Aqueous|HKF|"⟩,  -- Cd(CH3COO)3-|1:Cd 6:C 9:H 6:O|-1.0
  ⟨n!"Hg(Ac)+", 781, n!"Aqueous|HKF|"⟩,  -- HgCH3COO+|1:Hg 2:C 3:H 2:O|1.0
  ⟨n!"Hg(Ac)2(aq)", 782, n!"Aqueous|HKF|"⟩,  -- Hg(CH3COO)2|1:Hg 4:C 6:H 4:O|0.0
  ⟨n!"Hg(Ac)3-", 783, n!"Aqueous|HKF|"⟩,  -- Hg(CH3COO)3-|1:Hg 6:C 9:H 6:O|-1.0
  ⟨n!"Sc(Ac)+2", 784, n!"Aqueous|HKF|"⟩,  -- ScCH3COO+2|1:Sc 2:C 3:H 2:O|2.0
  ⟨n!"Sc(Ac)2+", 785, n!"Aqueous|HKF|"⟩,  -- Sc(CH3COO)2+|1:Sc 4:C 6:H 4:O|1.0
  ⟨n!"Sc(Ac)3(aq)", 786, n!"Aqueous|HKF|"⟩,  -- Sc(CH3COO)3|1:Sc 6:C 9:H 6:O|0.0
  ⟨n!"U(Ac)+2", 787, n!"Aqueous|HKF|"⟩,  -- UCH3COO+2|1:U 2:C 3:H 2:O|2.0
  ⟨n!"U(Ac)2+", 788, n!"Aqueous|HKF|"⟩]  -- U(CH3COO)2+|1:U 4:C 6:H 4:O|1.0

/-- `supcrt07.yaml:15843-17696`. -/
def part9 : List Row := [
  ⟨n!"U(Ac)3(aq)", 789, n!"Aqueous|HKF|"⟩,  -- U(CH3COO)3|1:U 6:C 9:H 6:O|0.0
  ⟨n!"Pr(Ac)+2", 790, n!"Aqueous|HKF|"⟩,  -- PrCH3COO+2|1:Pr 2:C 3:H 2:O|2.0
  ⟨n!"Pr(Ac)2+", 791, n!"Aqueous|HKF|"⟩,  -- Pr(CH3COO)2+|1:Pr 4:C 6:H 4:O|1.0
  ⟨n!"Pr(Ac)3(aq)", 792, n!"Aqueous|HKF|"⟩,  -- Pr(CH3COO)3|1:Pr 6:C 9:H 6:O|0.0
  ⟨n!"La(Ac)+2", 793, n!"Aqueous|HKF|"⟩,  -- LaCH3COO+2|1:La 2:C 3:H 2:O|2.0
  ⟨n!"La(Ac)2+", 794, n!"Aqueous|HKF|"⟩,  -- La(CH3COO)2+|1:La 4:C 6:H 4:O|1.0
  ⟨n!"La(Ac)3(aq)", 795, n!"Aqueous|HKF|"⟩,  -- La(CH3COO)3|1:La 6:C 9:H 6:O|0.0
  ⟨n!"Nd(Ac)+2", 796, n!"Aqueous|HKF|"⟩,  -- NdCH3COO+2|1:Nd 2:C 3:H 2:O|2.0
  ⟨n!"Nd(Ac)2+", 797, n!"Aqueous|HKF|"⟩,  -- Nd(CH3COO)2+|1:Nd 4:C 6:H 4:O|1.0
  ⟨n!"Nd(Ac)3(aq)", 798, n!"Aqueous|HKF|"⟩,  -- Nd(CH3COO)3|1:Nd 6:C 9:H 6:O|0.0
  ⟨n!"Ce(Ac)+2", 799, n!"Aqueous|HKF|"⟩,  -- CeCH3COO+2|1:Ce 2:C 3:H 2:O|2.0
  ⟨n!"Ce(Ac)2+", 800, n!"Aqueous|HKF|"⟩,  -- Ce(CH3COO)2+|1:Ce 4:C 6:H 4:O|1.0
  ⟨n!"Ce(Ac)3(aq)", 801, n!"Aqueous|HKF|"⟩,  -- Ce(CH3COO)3|1:Ce 6:C 9:H 6:O|0.0
  ⟨n!"Gd(Ac)+2", 802, n!"Aqueous|HKF|"⟩,  -- GdCH3COO+2|1:Gd 2:C 3:H 2:O|2.0
  ⟨n!"Gd(Ac)2+", 803, n!"Aqueous|HKF|"⟩,  -- Gd(CH3COO)2+|1:Gd 4:C 6:H 4:O|1.0
  ⟨n!"Gd(Ac)3(aq)", 804, n!"Aqueous|HKF|"⟩,  -- Gd(CH3COO)3|1:Gd 6:C 9:H 6:O|0.0
  ⟨n!"Sm(Ac)+2", 805, n!"Aqueous|HKF|"⟩,  -- SmCH3COO+2|1:Sm 2:C 3:H 2:O|2.0
  ⟨n!"Sm(Ac)2+", 806, n!"Aqueous|HKF|"⟩,  -- Sm(CH3COO)2+|1:Sm 4:C 6:H 4:O|1.0
  ⟨n!"Sm(Ac)3(aq)", 807, n!"Aqueous|HKF|"⟩,  -- Sm(CH3COO)3|1:Sm 6:C 9:H 6:O|0.0
  ⟨n!"Yb(Ac)+2", 808, n!"Aqueous|HKF|"⟩,  -- YbCH3COO+2|1:Yb 2:C 3:H 2:O|2.0
  ⟨n!"Yb(Ac)2+", 809, n!"Aqueous|HKF|"⟩,  -- Yb(CH3COO)2+|1:Yb 4:C 6:H 4:O|1.0
  ⟨n!"Yb(Ac)3(aq)", 810, n!"Aqueous|HKF|"⟩,  -- Yb(CH3COO)3|1:Yb 6:C 9:H 6:O|0.0
  ⟨n!"Eu(Ac)+2", 811, n!"Aqueous|HKF|"⟩,  -- EuCH3COO+2|1:Eu 2:C 3:H 2:O|2.0
  ⟨n!"Eu(Ac)2+", 812, n!"Aqueous|HKF|"⟩,  -- Eu(CH3COO)2+|1:Eu 4:C 6:H 4:O|1.0
  ⟨n!"Eu(Ac)3(aq)", 813, n!"Aqueous|HKF|"⟩,  -- Eu(CH3COO)3|1:Eu 6:C 9:H 6:O|0.0
  ⟨n!"Y(Ac)+2", 814, n!"Aqueous|HKF|"⟩,  -- YCH3COO+2|1:Y 2:C 3:H 2:O|2.0
  ⟨n!"Y(Ac)2+", 815, n!"Aqueous|HKF|"⟩,  -- Y(CH3COO)2+|1:Y 4:C 6:H 4:O|1.0
  ⟨n!"Y(Ac)3(aq)", 816, n!"Aqueous|HKF|"⟩,  -- Y(CH3COO)3|1:Y 6:C 9:H 6:O|0.0
  ⟨n!"Lu(Ac)+2", 817, n!"Aqueous|HKF|"⟩,  -- LuCH3COO+2|1:Lu 2:C 3:H 2:O|2.0
  ⟨n!"Lu(Ac)2+", 818, n!"Aqueous|HKF|"⟩,  -- Lu(CH3COO)2+|1:Lu 4:C 6:H 4:O|1.0
  ⟨n!"Lu(Ac)3(aq)", 819, n!"Aqueous|HKF|"⟩,  -- Lu(CH3COO)3|1:Lu 6:C 9:H 6:O|0.0
  ⟨n!"Tb(Ac)+2", 820, n!"Aqueous|HKF|"⟩,  -- TbCH3COO+2|1:Tb 2:C 3:H 2:O|2.0
  ⟨n!"Tb(Ac)2+", 821, n!"Aqueous|HKF|"⟩,  -- Tb(CH3COO)2+|1:Tb 4:C 6:H 4:O|1.0
  ⟨n!"Tb(Ac)3(aq)", 822, n!"Aqueous|HKF|"⟩,  -- Tb(CH3COO)3|1:Tb 6:C 9:H 6:O|0.0
  ⟨n!"Pb(Ac)3-", 823, n!"Aqueous|HKF|"⟩,  -- Pb(CH3COO)3-|1:Pb 6:C 9:H 6:O|-1.0
  ⟨n!"Fe(Ac)+", 824, n!"Aqueous|HKF|"⟩,  -- FeCH3COO+|1:Fe 2:C 3:H 2:O|1.0
  ⟨n!"Fe(Ac)2(aq)", 825, n!"Aqueous|HKF|"⟩,  -- Fe(CH3COO)2|1:Fe 4:C 6:H 4:O|0.0
  ⟨n!"Zn(Ac)+", 826, n!"Aqueous|HKF|"⟩,  -- ZnCH3COO+|1:Zn 2:C 3:H 2:O|1.0
  ⟨n!"Zn(Ac)2(aq)", 827, n!"Aqueous|HKF|"⟩,  -- Zn(CH3COO)2|1:Zn 4:C 6:H 4:O|0.0
  ⟨n!"Zn(Ac)3-", 828, n!"Aqueous|HKF|"⟩,  -- Zn(CH3COO)3-|1:Zn 6:C 9:H 6:O|-1.0
  ⟨n!"Ca(Ac)+", 829, n!"Aqueous|HKF|"⟩,  -- CaCH3COO+|1:Ca 2:C 3:H 2:O|1.0
  ⟨n!"Ca(Ac)2(aq)", 830, n!"Aqueous|HKF|"⟩,  -- Ca(CH3COO)2|1:Ca 4:C 6:H 4:O|0.0
  ⟨n!"Al(Ac)+2", 831, n!"Aqueous|HKF|"⟩,  -- AlCH3COO+2|1:Al 2:C 3:H 2:O|2.0
  ⟨n!"Al(Ac)2+", 832, n!"Aqueous|HKF|"⟩,  -- Al(CH3COO)2+|1:Al 4:C 6:H 4:O|1.0
  ⟨n!"Al(Ac)3(aq)", 833, n!"Aqueous|HKF|"⟩,  -- Al(CH3COO)3|1:Al 6:C 9:H 6:O|0.0
  ⟨n!"Acetaldehyde(aq)", 834, n!"Aqueous|HKF|"⟩,  -- CH3CHO|2:C 4:H 1:O|0.0
  ⟨n!"Butanal(aq)", 835, n!"Aqueous|HKF|"⟩,  -- CH3(CH2)2CHO|4:C 8:H 1:O|0.0
  ⟨n!"Decanal(aq)", 836, n!"Aqueous|HKF|"⟩,  -- CH3(CH2)8CHO|10:C 20:H 1:O|0.0
  ⟨n!"Formaldehyde(aq)", 837, n!"Aqueous|HKF|"⟩,  -- HCHO|1:C 2:H 1:O|0.0
  ⟨n!"Heptanal(aq)", 838, n!"Aqueous|HKF|"⟩,  -- CH3(CH2)5CHO|7:C 14:H 1:O|0.0
  ⟨n!"Hexanal(aq)", 839, n!"Aqueous|HKF|"⟩,  -- CH3(CH2)4CHO|6:C 12:H 1:O|0.0
  ⟨n!"Nonanal(aq)", 840, n!"Aqueous|HKF|"⟩,  -- CH3(CH2)7CHO|9:C 18:H 1:O|0.0
  ⟨n!"Octanal(aq)", 841, n!"Aqueous|HKF|"⟩,  -- CH3(CH2)6CHO|8:C 16:H 1:O|0.0
  ⟨n!"Pentanal(aq)", 842, n!"Aqueous|HKF|"⟩,  -- CH3(CH2)3CHO|5:C 10:H 1:O|0.0
  ⟨n!"Propanal(aq)", 843, n!"Aqueous|HKF|"⟩,  -- CH3CH2CHO|3:C 6:H 1:O|0.0
  ⟨n!"UOH+2", 844, n!"Aqueous|HKF|"⟩,  -- U(OH)+2|1:U 1:O 1:H|2.0
  ⟨n!"UO+", 845, n!"Aqueous|HKF|"⟩,  -- UO+|1:U 1:O|1.0
  ⟨n!"HUO2(aq)", 846, n!"Aqueous|HKF|"⟩,  -- HUO2|1:U 2:O 1:H|0.0
  ⟨n!"U(OH)+3", 847, n!"Aqueous|HKF|"⟩,  -- U(OH)+3|1:U 1:O 1:H|3.0
  ⟨n!"UO+2", 848, n!"Aqueous|HKF|"⟩,  -- UO+2|1:U 1:O|2.0
  ⟨n!"HUO2+", 849, n!"Aqueous|HKF|"⟩,  -- HUO2+|1:U 2:O 1:H|1.0
  ⟨n!"UO2(aq)", 850, n!"Aqueous|HKF|"⟩,  -- UO2|1:U 2:O|0.0
  ⟨n!"HUO3-", 851, n!"Aqueous|HKF|"⟩,  -- HUO3-|1:U 3:O 1:H|-1.0
  ⟨n!"UO2OH(aq)", 852, n!"Aqueous|HKF|"⟩,  -- UO2OH|1:U 3:O 1:H|0.0
  ⟨n!"UO3-", 853, n!"Aqueous|HKF|"⟩,  -- UO3-|1:U 3:O|-1.0
  ⟨n!"UO2OH+", 854, n!"Aqueous|HKF|"⟩,  -- UO2OH+|1:U 3:O 1:H|1.0
  ⟨n!"UO3(aq)", 855, n!"Aqueous|HKF|"⟩,  -- UO3|1:U 3:O|0.0
  ⟨n!"HUO4-", 856, n!"Aqueous|HKF|"⟩,  -- HUO4-|1:U 4:O 1:H|-1.0
  ⟨n!"UO4-2", 857, n!"Aqueous|HKF|"⟩,  -- UO4-2|1:U 4:O|-2.0
  ⟨n!"Fr+", 858, n!"Aqueous|HKF|"⟩,  -- Fr+|1:Fr|1.0
  ⟨n!"OCN-", 859, n!"Aqueous|HKF|"⟩,  -- OCN-|1:O 1:C 1:N|-1.0
  ⟨n!"SCN-", 860, n!"Aqueous|HKF|"⟩,  -- SCN-|1:S 1:C 1:N|-1.0
  ⟨n!"SeCN-", 861, n!"Aqueous|HKF|"⟩,  -- SeCN-|1:Se 1:C 1:N|-1.0
  ⟨n!"HNO2(aq)", 862, n!"Aqueous|HKF|"⟩,  -- HNO2|1:H 1:N 2:O|0.0
  ⟨n!"H2N2O2(aq)", 863, n!"Aqueous|HKF|"⟩,  -- H2N2O2|2:H 2:N 2:O|0.0
  ⟨n!"HN2O2-", 2257, n!"Aqueous|HKF|"⟩,  -- HNO2-|1:H 2:N 2:O|-1.0
  ⟨n!"N2O2-2", 864, n!"Aqueous|HKF|"⟩,  -- N2O2-2|2:N 2:O|-2.0
  ⟨n!"N2H5+", 865, n!"Aqueous|HKF|"⟩,  -- N2H5+|2:N 5:H|1.0
  ⟨n!"N2H6+2", 866, n!"Aqueous|HKF|"⟩,  -- N2H6+2|2:N 6:H|2.0
  ⟨n!"H3PO2(aq)", 867, n!"Aqueous|HKF|"⟩,  -- H3PO2|3:H 1:P 2:O|0.0
  ⟨n!"H2PO2-", 868, n!"Aqueous|HKF|"⟩,  -- H2PO2-|2:H 1:P 2:O|-1.0
  ⟨n!"H3PO3(aq)", 869, n!"Aqueous|HKF|"⟩,  -- H3PO3|3:H 1:P 3:O|0.0
  ⟨n!"H2PO3-", 870, n!"Aqueous|HKF|"⟩,  -- H2PO3-|2:H 1:P 3:O|-1.0
  ⟨n!"HPO3-2", 871, n!"Aqueous|HKF|"⟩,  -- HPO3-2|1:H 1:P 3:O|-2.0
  ⟨n!"P2O7-4", 872, n!"Aqueous|HKF|"⟩,  -- P2O7-4|2:P 7:O|-4.0
  ⟨n!"HP2O7-3", 873, n!"Aqueous|HKF|"⟩,  -- HP2O7-3|1:H 2:P 7:O|-3.0
  ⟨n!"H4P2O7(aq)", 874, n!"Aqueous|HKF|"⟩,  -- H4P2O7|4:H 2:P 7:O|0.0
  ⟨n!"AsO4-3", 875, n!"Aqueous|HKF|"⟩,  -- AsO4-3|1:As 4:O|-3.0
  ⟨n!"H3AsO4(aq)", 876, n!"Aqueous|HKF|"⟩,  -- H3AsO4|3:H 1:As 4:O|0.0
  ⟨n!"AsO2-", 877, n!"Aqueous|HKF|"⟩,  -- AsO2-|1:As 2:O|-1.0
  ⟨n!"HAsO2(aq)", 878, n!"Aqueous|HKF|"⟩,  -- HAsO2|1:H 1:As 2:O|0.0
  ⟨n!"HSbO2(aq)", 879, n!"Aqueous|HKF|"⟩,  -- HSbO2|1:H 1:Sb 2:O|0.0
  ⟨n!"SbO2-", 880, n!"Aqueous|HKF|"⟩,  -- SbO2-|1:Sb 2:O|-1.0
  ⟨n!"Bi+3", 881, n!"Aqueous|HKF|"⟩,  -- Bi+3|1:Bi|3.0
  ⟨n!"BiO+", 882, n!"Aqueous|HKF|"⟩,  -- BiO+|1:Bi 1:O|1.0
  ⟨n!"BiOH+2", 883, n!"Aqueous|HKF|"⟩,  -- BiOH+2|1:Bi 1:O 1:H|2.0
  ⟨n!"HBiO2(aq)", 884, n!"Aqueous|HKF|"⟩,  -- HBiO2|1:H 1:Bi 2:O|0.0
  ⟨n!"BiO2-", 885, n!"Aqueous|HKF|"⟩,  -- BiO2-|1:Bi 2:O|-1.0
  ⟨n!"H2O2(aq)", 886, n!"Aqueous|HKF|"⟩,  -- H2O2|2:H 2:O|0.0
  ⟨n!"HClO2(aq)", 887, n!"Aqueous|HKF|"⟩]  -- HClO2|1:H 1:Cl 2:O|0.0

/-- `supcrt07.yaml:17697-19496`. -/
def part10 : List Row := [
  ⟨n!"HIO3(aq)", 888, n!"Aqueous|HKF|"⟩,  -- HIO3|1:H 1:I 3:O|0.0
  ⟨n!"V+2", 889, n!"Aqueous|HKF|"⟩,  -- V+2|1:V|2.0
  ⟨n!"V+3", 890, n!"Aqueous|HKF|"⟩,  -- V+3|1:V|3.0
  ⟨n!"VO4-3", 891, n!"Aqueous|HKF|"⟩,  -- VO4-3|1:V 4:O|-3.0
  ⟨n!"Cr+2", 892, n!"Aqueous|HKF|"⟩,  -- Cr+2|1:Cr|2.0
  ⟨n!"Cr+3", 893, n!"Aqueous|HKF|"⟩,  -- Cr+3|1:Cr|3.0
  ⟨n!"CrOH+2", 894, n!"Aqueous|HKF|"⟩,  -- CrOH+2|1:Cr 1:O 1:H|2.0
  ⟨n!"CrO+", 895, n!"Aqueous|HKF|"⟩,  -- CrO+|1:Cr 1:O|1.0
  ⟨n!"HCrO2(aq)", 896, n!"Aqueous|HKF|"⟩,  -- HCrO2|1:H 1:Cr 2:O|0.0
  ⟨n!"CrO2-", 897, n!"Aqueous|HKF|"⟩,  -- CrO2-|1:Cr 2:O|-1.0
  ⟨n!"Zr+4", 898, n!"Aqueous|HKF|"⟩,  -- Zr+4|1:Zr|4.0
  ⟨n!"ZrOH+3", 899, n!"Aqueous|HKF|"⟩,  -- Zr(OH)+3|1:Zr 1:O 1:H|3.0
  ⟨n!"ZrO+2", 900, n!"Aqueous|HKF|"⟩,  -- ZrO+2|1:Zr 1:O|2.0
  ⟨n!"HZrO2+", 901, n!"Aqueous|HKF|"⟩,  -- HZrO2+|1:Zr 2:O 1:H|1.0
  ⟨n!"ZrO2(aq)", 902, n!"Aqueous|HKF|"⟩,  -- ZrO2|1:Zr 2:O|0.0
  ⟨n!"HZrO3-", 903, n!"Aqueous|HKF|"⟩,  -- HZrO3-|1:Zr 3:O 1:H|-1.0
  ⟨n!"HNbO3(aq)", 904, n!"Aqueous|HKF|"⟩,  -- HNbO3|1:H 1:Nb 3:O|0.0
  ⟨n!"NbO3-", 905, n!"Aqueous|HKF|"⟩,  -- NbO3-|1:Nb 3:O|-1.0
  ⟨n!"TcO4-", 906, n!"Aqueous|HKF|"⟩,  -- TcO4-|1:Tc 4:O|-1.0
  ⟨n!"Pm+2", 907, n!"Aqueous|HKF|"⟩,  -- Pm+2|1:Pm|2.0
  ⟨n!"Pm+3", 908, n!"Aqueous|HKF|"⟩,  -- Pm+3|1:Pm|3.0
  ⟨n!"Pm+4", 909, n!"Aqueous|HKF|"⟩,  -- Pm+4|1:Pm|4.0
  ⟨n!"Hf+4", 910, n!"Aqueous|HKF|"⟩,  -- Hf+4|1:Hf|4.0
  ⟨n!"HfOH+3", 911, n!"Aqueous|HKF|"⟩,  -- HfOH+3|1:Hf 1:O 1:H|3.0
  ⟨n!"HfO+2", 912, n!"Aqueous|HKF|"⟩,  -- HfO+2|1:Hf 1:O|2.0
  ⟨n!"HHfO2+", 913, n!"Aqueous|HKF|"⟩,  -- HHfO2+|1:H 1:Hf 2:O|1.0
  ⟨n!"HfO2(aq)", 914, n!"Aqueous|HKF|"⟩,  -- HfO2|1:Hf 2:O|0.0
  ⟨n!"HHfO3-", 915, n!"Aqueous|HKF|"⟩,  -- HHfO3-|1:H 1:Hf 3:O|-1.0
  ⟨n!"La+2", 916, n!"Aqueous|HKF|"⟩,  -- La+2|1:La|2.0
  ⟨n!"LaCO3+", 917, n!"Aqueous|HKF|"⟩,  -- LaCO3+|1:La 1:C 3:O|1.0
  ⟨n!"LaHCO3+2", 918, n!"Aqueous|HKF|"⟩,  -- LaHCO3+2|1:La 1:H 1:C 3:O|2.0
  ⟨n!"LaOH+2", 919, n!"Aqueous|HKF|"⟩,  -- LaOH+2|1:La 1:O 1:H|2.0
  ⟨n!"LaO+", 920, n!"Aqueous|HKF|"⟩,  -- LaO+|1:La 1:O|1.0
  ⟨n!"LaO2H(aq)", 921, n!"Aqueous|HKF|"⟩,  -- LaO2H|1:La 2:O 1:H|0.0
  ⟨n!"LaO2-", 922, n!"Aqueous|HKF|"⟩,  -- LaO2-|1:La 2:O|-1.0
  ⟨n!"LaCl+2", 923, n!"Aqueous|HKF|"⟩,  -- LaCl+2|1:La 1:Cl|2.0
  ⟨n!"LaCl2+", 924, n!"Aqueous|HKF|"⟩,  -- LaCl2+|1:La 2:Cl|1.0
  ⟨n!"LaCl3(aq)", 925, n!"Aqueous|HKF|"⟩,  -- LaCl3|1:La 3:Cl|0.0
  ⟨n!"LaCl4-", 926, n!"Aqueous|HKF|"⟩,  -- LaCl4-|1:La 4:Cl|-1.0
  ⟨n!"LaNO3+2", 927, n!"Aqueous|HKF|"⟩,  -- LaNO3+2|1:La 1:N 3:O|2.0
  ⟨n!"LaF+2", 928, n!"Aqueous|HKF|"⟩,  -- LaF+2|1:La 1:F|2.0
  ⟨n!"LaF2+", 929, n!"Aqueous|HKF|"⟩,  -- LaF2+|1:La 2:F|1.0
  ⟨n!"LaF3(aq)", 930, n!"Aqueous|HKF|"⟩,  -- LaF3|1:La 3:F|0.0
  ⟨n!"LaF4-", 931, n!"Aqueous|HKF|"⟩,  -- LaF4-|1:La 4:F|-1.0
  ⟨n!"LaH2PO4+2", 932, n!"Aqueous|HKF|"⟩,  -- LaH2PO4+2|1:La 2:H 1:P 4:O|2.0
  ⟨n!"LaSO4+", 933, n!"Aqueous|HKF|"⟩,  -- LaSO4+|1:La 1:S 4:O|1.0
  ⟨n!"CeCO3+", 934, n!"Aqueous|HKF|"⟩,  -- CeCO3+|1:Ce 1:C 3:O|1.0
  ⟨n!"CeHCO3+2", 935, n!"Aqueous|HKF|"⟩,  -- CeHCO3+2|1:Ce 1:H 1:C 3:O|2.0
  ⟨n!"CeOH+2", 936, n!"Aqueous|HKF|"⟩,  -- CeOH+2|1:Ce 1:O 1:H|2.0
  ⟨n!"CeO+", 937, n!"Aqueous|HKF|"⟩,  -- CeO+|1:Ce 1:O|1.0
  ⟨n!"CeO2H(aq)", 938, n!"Aqueous|HKF|"⟩,  -- CeO2H|1:Ce 2:O 1:H|0.0
  ⟨n!"CeO2-", 939, n!"Aqueous|HKF|"⟩,  -- CeO2-|1:Ce 2:O|-1.0
  ⟨n!"CeCl+2", 940, n!"Aqueous|HKF|"⟩,  -- CeCl+2|1:Ce 1:Cl|2.0
  ⟨n!"CeCl2+", 941, n!"Aqueous|HKF|"⟩,  -- CeCl2+|1:Ce 2:Cl|1.0
  ⟨n!"CeCl3(aq)", 942, n!"Aqueous|HKF|"⟩,  -- CeCl3|1:Ce 3:Cl|0.0
  ⟨n!"CeCl4-", 943, n!"Aqueous|HKF|"⟩,  -- CeCl4-|1:Ce 4:Cl|-1.0
  ⟨n!"CeH2PO4+2", 944, n!"Aqueous|HKF|"⟩,  -- CeH2PO4+2|1:Ce 2:H 1:P 4:O|2.0
  ⟨n!"CeNO3+2", 945, n!"Aqueous|HKF|"⟩,  -- CeNO3+2|1:Ce 1:N 3:O|2.0
  ⟨n!"CeF+2", 946, n!"Aqueous|HKF|"⟩,  -- CeF+2|1:Ce 1:F|2.0
  ⟨n!"CeF2+", 947, n!"Aqueous|HKF|"⟩,  -- CeF2+|1:Ce 2:F|1.0
  ⟨n!"CeF3(aq)", 948, n!"Aqueous|HKF|"⟩,  -- CeF3|1:Ce 3:F|0.0
  ⟨n!"CeF4-", 949, n!"Aqueous|HKF|"⟩,  -- CeF4-|1:Ce 4:F|-1.0
  ⟨n!"CeBr+2", 950, n!"Aqueous|HKF|"⟩,  -- CeBr+2|1:Ce 1:Br|2.0
  ⟨n!"CeIO3+2", 951, n!"Aqueous|HKF|"⟩,  -- CeIO3+2|1:Ce 1:I 3:O|2.0
  ⟨n!"CeClO4+2", 952, n!"Aqueous|HKF|"⟩,  -- CeClO4+2|1:Ce 1:Cl 4:O|2.0
  ⟨n!"CeSO4+", 953, n!"Aqueous|HKF|"⟩,  -- CeSO4+|1:Ce 1:S 4:O|1.0
  ⟨n!"PrCO3+", 954, n!"Aqueous|HKF|"⟩,  -- PrCO3+|1:Pr 1:C 3:O|1.0
  ⟨n!"PrHCO3+2", 955, n!"Aqueous|HKF|"⟩,  -- PrHCO3+2|1:Pr 1:H 1:C 3:O|2.0
  ⟨n!"PrCl+2", 956, n!"Aqueous|HKF|"⟩,  -- PrCl+2|1:Pr 1:Cl|2.0
  ⟨n!"PrCl2+", 957, n!"Aqueous|HKF|"⟩,  -- PrCl2+|1:Pr 2:Cl|1.0
  ⟨n!"PrCl3(aq)", 958, n!"Aqueous|HKF|"⟩,  -- PrCl3|1:Pr 3:Cl|0.0
  ⟨n!"PrCl4-", 959, n!"Aqueous|HKF|"⟩,  -- PrCl4-|1:Pr 4:Cl|-1.0
  ⟨n!"PrH2PO4+2", 960, n!"Aqueous|HKF|"⟩,  -- PrH2PO4+2|1:Pr 2:H 1:P 4:O|2.0
  ⟨n!"PrNO3+2", 961, n!"Aqueous|HKF|"⟩,  -- PrNO3+2|1:Pr 1:N 3:O|2.0
  ⟨n!"PrF+2", 962, n!"Aqueous|HKF|"⟩,  -- PrF+2|1:Pr 1:F|2.0
  ⟨n!"PrF2+", 963, n!"Aqueous|HKF|"⟩,  -- PrF2+|1:Pr 2:F|1.0
  ⟨n!"PrF3(aq)", 964, n!"Aqueous|HKF|"⟩,  -- PrF3|1:Pr 3:F|0.0
  ⟨n!"PrF4-", 965, n!"Aqueous|HKF|"⟩,  -- PrF4-|1:Pr 4:F|-1.0
  ⟨n!"PrOH+2", 966, n!"Aqueous|HKF|"⟩,  -- PrOH+2|1:Pr 1:O 1:H|2.0
  ⟨n!"PrO+", 967, n!"Aqueous|HKF|"⟩,  -- PrO+|1:Pr 1:O|1.0
  ⟨n!"PrO2H(aq)", 968, n!"Aqueous|HKF|"⟩,  -- PrO2H|1:Pr 2:O 1:H|0.0
  ⟨n!"PrO2-", 969, n!"Aqueous|HKF|"⟩,  -- PrO2-|1:Pr 2:O|-1.0
  ⟨n!"PrSO4+", 970, n!"Aqueous|HKF|"⟩,  -- PrSO4+|1:Pr 1:S 4:O|1.0
  ⟨n!"NdCO3+", 971, n!"Aqueous|HKF|"⟩,  -- NdCO3+|1:Nd 1:C 3:O|1.0
  ⟨n!"NdHCO3+2", 972, n!"Aqueous|HKF|"⟩,  -- NdHCO3+2|1:Nd 1:H 1:C 3:O|2.0
  ⟨n!"NdOH+2", 973, n!"Aqueous|HKF|"⟩,  -- NdOH+2|1:Nd 1:O 1:H|2.0
  ⟨n!"NdO+", 974, n!"Aqueous|HKF|"⟩,  -- NdO+|1:Nd 1:O|1.0
  ⟨n!"NdO2H(aq)", 975, n!"Aqueous|HKF|"⟩,  -- NdO2H|1:Nd 2:O 1:H|0.0
  ⟨n!"NdO2-", 976, n!"Aqueous|HKF|"⟩,  -- NdO2-|1:Nd 2:O|-1.0
  ⟨n!"NdCl+2", 977, n!"Aqueous|HKF|"⟩,  -- NdCl+2|1:Nd 1:Cl|2.0
  ⟨n!"NdCl2+", 978, n!"Aqueous|HKF|"⟩,  -- NdCl2+|1:Nd 2:Cl|1.0
  ⟨n!"NdCl3(aq)", 979, n!"Aqueous|HKF|"⟩,  -- NdCl3|1:Nd 3:Cl|0.0
  ⟨n!"NdCl4-", 980, n!"Aqueous|HKF|"⟩,  -- NdCl4-|1:Nd 4:Cl|-1.0
  ⟨n!"NdH2PO4+2", 981, n!"Aqueous|HKF|"⟩,  -- NdH2PO4+2|1:Nd 2:H 1:P 4:O|2.0
  ⟨n!"NdNO3+2", 982, n!"Aqueous|HKF|"⟩,  -- NdNO3+2|1:Nd 1:N 3:O|2.0
  ⟨n!"NdF+2", 983, n!"Aqueous|HKF|"⟩,  -- NdF+2|1:Nd 1:F|2.0
  ⟨n!"NdF2+", 984, n!"Aqueous|HKF|"⟩,  -- NdF2+|1:Nd 2:F|1.0
  ⟨n!"NdF3(aq)", 985, n!"Aqueous|HKF|"⟩,  -- NdF3|1:Nd 3:F|0.0
  ⟨n!"NdF4-", 986, n!"Aqueous|HKF|"⟩,  -- NdF4-|1:Nd 4:F|-1.0
  ⟨n!"NdSO4+", 987, n!"Aqueous|HKF|"⟩]  -- NdSO4+|1:Nd 1:S 4:O|1.0

/-- `supcrt07.yaml:19497-21296`. -/
def part11 : List Row := [
  ⟨n!"SmCO3+", 988, n!"Aqueous|HKF|"⟩,  -- SmCO3+|1:Sm 1:C 3:O|1.0
  ⟨n!"SmOH+2", 989, n!"Aqueous|HKF|"⟩,  -- SmOH+2|1:Sm 1:O 1:H|2.0
  ⟨n!"SmO+", 990, n!"Aqueous|HKF|"⟩,  -- SmO+|1:Sm 1:O|1.0
  ⟨n!"SmO2H(aq)", 991, n!"Aqueous|HKF|"⟩,  -- SmO2H|1:Sm 2:O 1:H|0.0
  ⟨n!"SmO2-", 992, n!"Aqueous|HKF|"⟩,  -- SmO2-|1:Sm 2:O|-1.0
  ⟨n!"SmHCO3+2", 993, n!"Aqueous|HKF|"⟩,  -- SmHCO3+2|1:Sm 1:H 1:C 3:O|2.0
  ⟨n!"SmCl+2", 994, n!"Aqueous|HKF|"⟩,  -- SmCl+2|1:Sm 1:Cl|2.0
  ⟨n!"SmCl2+", 995, n!"Aqueous|HKF|"⟩,  -- SmCl2+|1:Sm 2:Cl|1.0
  ⟨n!"SmCl3(aq)", 996, n!"Aqueous|HKF|"⟩,  -- SmCl3|1:Sm 3:Cl|0.0
  ⟨n!"SmCl4-", 997, n!"Aqueous|HKF|"⟩,  -- SmCl4-|1:Sm 4:Cl|-1.0
  ⟨n!"SmH2PO4+2", 998, n!"Aqueous|HKF|"⟩,  -- SmH2PO4+2|1:Sm 2:H 1:P 4:O|2.0
  ⟨n!"SmNO3+2", 999, n!"Aqueous|HKF|"⟩,  -- SmNO3+2|1:Sm 1:N 3:O|2.0
  ⟨n!"SmF+2", 1000, n!"Aqueous|HKF|"⟩,  -- SmF+2|1:Sm 1:F|2.0
  ⟨n!"SmF2+", 1001, n!"Aqueous|HKF|"⟩,  -- SmF2+|1:Sm 2:F|1.0
  ⟨n!"SmF3(aq)", 1002, n!"Aqueous|HKF|"⟩,  -- SmF3|1:Sm 3:F|0.0
  ⟨n!"SmF4-", 1003, n!"Aqueous|HKF|"⟩,  -- SmF4-|1:Sm 4:F|-1.0
  ⟨n!"SmSO4+", 1004, n!"Aqueous|HKF|"⟩,  -- SmSO4+|1:Sm 1:S 4:O|1.0
  ⟨n!"EuCO3+", 1005, n!"Aqueous|HKF|"⟩,  -- EuCO3+|1:Eu 1:C 3:O|1.0
  ⟨n!"EuOH+2", 1006, n!"Aqueous|HKF|"⟩,  -- EuOH+2|1:Eu 1:O 1:H|2.0
  ⟨n!"EuO+", 1007, n!"Aqueous|HKF|"⟩,  -- EuO+|1:Eu 1:O|1.0
  ⟨n!"EuO2H(aq)", 1008, n!"Aqueous|HKF|"⟩,  -- EuO2H|1:Eu 2:O 1:H|0.0
  ⟨n!"EuO2-", 1009, n!"Aqueous|HKF|"⟩,  -- EuO2-|1:Eu 2:O|-1.0
  ⟨n!"EuHCO3+2", 1010, n!"Aqueous|HKF|"⟩,  -- EuHCO3+2|1:Eu 1:H 1:C 3:O|2.0
  ⟨n!"EuCl+2", 1011, n!"Aqueous|HKF|"⟩,  -- EuCl+2|1:Eu 1:Cl|2.0
  ⟨n!"EuCl2+", 1012, n!"Aqueous|HKF|"⟩,  -- EuCl2+|1:Eu 2:Cl|1.0
  ⟨n!"EuCl3(aq)", 1013, n!"Aqueous|HKF|"⟩,  -- EuCl3|1:Eu 3:Cl|0.0
  ⟨n!"EuCl4-", 1014, n!"Aqueous|HKF|"⟩,  -- EuCl4-|1:Eu 4:Cl|-1.0
  ⟨n!"EuF+", 1015, n!"Aqueous|HKF|"⟩,  -- EuF+|1:Eu 1:F|1.0
  ⟨n!"EuF2(aq)", 2258, n!"Aqueous|HKF|"⟩,  -- EuF2|1:Eu 1:F|0.0
  ⟨n!"EuF3-", 1016, n!"Aqueous|HKF|"⟩,  -- EuF3-|1:Eu 3:F|-1.0
  ⟨n!"EuF4-2", 1017, n!"Aqueous|HKF|"⟩,  -- EuF4-2|1:Eu 4:F|-2.0
  ⟨n!"EuCl+", 1018, n!"Aqueous|HKF|"⟩,  -- EuCl+|1:Eu 1:Cl|1.0
  ⟨n!"EuCl2(aq)", 1019, n!"Aqueous|HKF|"⟩,  -- EuCl2|1:Eu 2:Cl|0.0
  ⟨n!"EuCl3-", 1020, n!"Aqueous|HKF|"⟩,  -- EuCl3-|1:Eu 3:Cl|-1.0
  ⟨n!"EuCl4-2", 1021, n!"Aqueous|HKF|"⟩,  -- EuCl4-2|1:Eu 4:Cl|-2.0
  ⟨n!"EuH2PO4+2", 1022, n!"Aqueous|HKF|"⟩,  -- EuH2PO4+2|1:Eu 2:H 1:P 4:O|2.0
  ⟨n!"EuNO3+2", 1023, n!"Aqueous|HKF|"⟩,  -- EuNO3+2|1:Eu 1:N 3:O|2.0
  ⟨n!"EuF+2", 1024, n!"Aqueous|HKF|"⟩,  -- EuF+2|1:Eu 1:F|2.0
  ⟨n!"EuF2+", 1025, n!"Aqueous|HKF|"⟩,  -- EuF2+|1:Eu 2:F|1.0
  ⟨n!"EuF3(aq)", 1026, n!"Aqueous|HKF|"⟩,  -- EuF3|1:Eu 3:F|0.0
  ⟨n!"EuF4-", 1027, n!"Aqueous|HKF|"⟩,  -- EuF4-|1:Eu 4:F|-1.0
  ⟨n!"EuSO4+", 1028, n!"Aqueous|HKF|"⟩,  -- EuSO4+|1:Eu 1:S 4:O|1.0
  ⟨n!"GdCO3+", 1029, n!"Aqueous|HKF|"⟩,  -- GdCO3+|1:Gd 1:C 3:O|1.0
  ⟨n!"GdOH+2", 1030, n!"Aqueous|HKF|"⟩,  -- GdOH+2|1:Gd 1:O 1:H|2.0
  ⟨n!"GdO+", 1031, n!"Aqueous|HKF|"⟩,  -- GdO+|1:Gd 1:O|1.0
  ⟨n!"GdO2H(aq)", 1032, n!"Aqueous|HKF|"⟩,  -- GdO2H|1:Gd 2:O 1:H|0.0
  ⟨n!"GdO2-", 1033, n!"Aqueous|HKF|"⟩,  -- GdO2-|1:Gd 2:O|-1.0
  ⟨n!"GdHCO3+2", 1034, n!"Aqueous|HKF|"⟩,  -- GdHCO3+2|1:Gd 1:H 1:C 3:O|2.0
  ⟨n!"GdCl+2", 1035, n!"Aqueous|HKF|"⟩,  -- GdCl+2|1:Gd 1:Cl|2.0
  ⟨n!"GdCl2+", 1036, n!"Aqueous|HKF|"⟩,  -- GdCl2+|1:Gd 2:Cl|1.0
  ⟨n!"GdCl3(aq)", 1037, n!"Aqueous|HKF|"⟩,  -- GdCl3|1:Gd 3:Cl|0.0
  ⟨n!"GdCl4-", 1038, n!"Aqueous|HKF|"⟩,  -- GdCl4-|1:Gd 4:Cl|-1.0
  ⟨n!"GdH2PO4+2", 1039, n!"Aqueous|HKF|"⟩,  -- GdH2PO4+2|1:Gd 2:H 1:P 4:O|2.0
  ⟨n!"GdNO3+2", 1040, n!"Aqueous|HKF|"⟩,  -- GdNO3+2|1:Gd 1:N 3:O|2.0
  ⟨n!"GdF+2", 1041, n!"Aqueous|HKF|"⟩,  -- GdF+2|1:Gd 1:F|2.0
  ⟨n!"GdF2+", 1042, n!"Aqueous|HKF|"⟩,  -- GdF2+|1:Gd 2:F|1.0
  ⟨n!"GdF3(aq)", 1043, n!"Aqueous|HKF|"⟩,  -- GdF3|1:Gd 3:F|0.0
  ⟨n!"GdF4-", 1044, n!"Aqueous|HKF|"⟩,  -- GdF4-|1:Gd 4:F|-1.0
  ⟨n!"GdSO4+", 1045, n!"Aqueous|HKF|"⟩,  -- GdSO4+|1:Gd 1:S 4:O|1.0
  ⟨n!"TbCO3+", 1046, n!"Aqueous|HKF|"⟩,  -- TbCO3+|1:Tb 1:C 3:O|1.0
  ⟨n!"TbOH+2", 1047, n!"Aqueous|HKF|"⟩,  -- TbOH+2|1:Tb 1:O 1:H|2.0
  ⟨n!"TbO+", 1048, n!"Aqueous|HKF|"⟩,  -- TbO+|1:Tb 1:O|1.0
  ⟨n!"TbO2H(aq)", 1049, n!"Aqueous|HKF|"⟩,  -- TbO2H|1:Tb 2:O 1:H|0.0
  ⟨n!"TbO2-", 1050, n!"Aqueous|HKF|"⟩,  -- TbO2-|1:Tb 2:O|-1.0
  ⟨n!"TbHCO3+2", 1051, n!"Aqueous|HKF|"⟩,  -- TbHCO3+2|1:Tb 1:H 1:C 3:O|2.0
  ⟨n!"TbCl+2", 1052, n!"Aqueous|HKF|"⟩,  -- TbCl+2|1:Tb 1:Cl|2.0
  ⟨n!"TbCl2+", 1053, n!"Aqueous|HKF|"⟩,  -- TbCl2+|1:Tb 2:Cl|1.0
  ⟨n!"TbCl3(aq)", 1054, n!"Aqueous|HKF|"⟩,  -- TbCl3|1:Tb 3:Cl|0.0
  ⟨n!"TbCl4-", 1055, n!"Aqueous|HKF|"⟩,  -- TbCl4-|1:Tb 4:Cl|-1.0
  ⟨n!"TbH2PO4+2", 1056, n!"Aqueous|HKF|"⟩,  -- TbH2PO4+2|1:Tb 2:H 1:P 4:O|2.0
  ⟨n!"TbNO3+2", 1057, n!"Aqueous|HKF|"⟩,  -- TbNO3+2|1:Tb 1:N 3:O|2.0
  ⟨n!"TbF+2", 1058, n!"Aqueous|HKF|"⟩,  -- TbF+2|1:Tb 1:F|2.0
  ⟨n!"TbF2+", 1059, n!"Aqueous|HKF|"⟩,  -- TbF2+|1:Tb 2:F|1.0
  ⟨n!"TbF3(aq)", 1060, n!"Aqueous|HKF|"⟩,  -- TbF3|1:Tb 3:F|0.0
  ⟨n!"TbF4-", 1061, n!"Aqueous|HKF|"⟩,  -- TbF4-|1:Tb 4:F|-1.0
  ⟨n!"TbSO4+", 1062, n!"Aqueous|HKF|"⟩,  -- TbSO4+|1:Tb 1:S 4:O|1.0
  ⟨n!"DyCO3+", 1063, n!"Aqueous|HKF|"⟩,  -- DyCO3+|1:Dy 1:C 3:O|1.0
  ⟨n!"DyHCO3+2", 1064, n!"Aqueous|HKF|"⟩,  -- DyHCO3+2|1:Dy 1:H 1:C 3:O|2.0
  ⟨n!"DyCl+2", 1065, n!"Aqueous|HKF|"⟩,  -- DyCl+2|1:Dy 1:Cl|2.0
  ⟨n!"DyCl2+", 1066, n!"Aqueous|HKF|"⟩,  -- DyCl2+|1:Dy 2:Cl|1.0
  ⟨n!"DyCl3(aq)", 1067, n!"Aqueous|HKF|"⟩,  -- DyCl3|1:Dy 3:Cl|0.0
  ⟨n!"DyCl4-", 1068, n!"Aqueous|HKF|"⟩,  -- DyCl4-|1:Dy 4:Cl|-1.0
  ⟨n!"DyH2PO4+2", 1069, n!"Aqueous|HKF|"⟩,  -- DyH2PO4+2|1:Dy 2:H 1:P 4:O|2.0
  ⟨n!"DyNO3+2", 1070, n!"Aqueous|HKF|"⟩,  -- DyNO3+2|1:Dy 1:N 3:O|2.0
  ⟨n!"DyF+2", 1071, n!"Aqueous|HKF|"⟩,  -- DyF+2|1:Dy 1:F|2.0
  ⟨n!"DyF2+", 1072, n!"Aqueous|HKF|"⟩,  -- DyF2+|1:Dy 2:F|1.0
  ⟨n!"DyF3(aq)", 1073, n!"Aqueous|HKF|"⟩,  -- DyF3|1:Dy 3:F|0.0
  ⟨n!"DyF4-", 1074, n!"Aqueous|HKF|"⟩,  -- DyF4-|1:Dy 4:F|-1.0
  ⟨n!"DyOH+2", 1075, n!"Aqueous|HKF|"⟩,  -- DyOH+2|1:Dy 1:O 1:H|2.0
  ⟨n!"DyO+", 1076, n!"Aqueous|HKF|"⟩,  -- DyO+|1:Dy 1:O|1.0
  ⟨n!"DyO2H(aq)", 1077, n!"Aqueous|HKF|"⟩,  -- DyO2H|1:Dy 2:O 1:H|0.0
  ⟨n!"DyO2-", 1078, n!"Aqueous|HKF|"⟩,  -- DyO2-|1:Dy 2:O|-1.0
  ⟨n!"DySO4+", 1079, n!"Aqueous|HKF|"⟩,  -- DySO4+|1:Dy 1:S 4:O|1.0
  ⟨n!"HoCO3+", 1080, n!"Aqueous|HKF|"⟩,  -- HoCO3+|1:Ho 1:C 3:O|1.0
  ⟨n!"HoHCO3+2", 1081, n!"Aqueous|HKF|"⟩,  -- HoHCO3+2|1:Ho 1:H 1:C 3:O|2.0
  ⟨n!"HoCl+2", 1082, n!"Aqueous|HKF|"⟩,  -- HoCl+2|1:Ho 1:Cl|2.0
  ⟨n!"HoCl2+", 1083, n!"Aqueous|HKF|"⟩,  -- HoCl2+|1:Ho 2:Cl|1.0
  ⟨n!"HoCl3(aq)", 1084, n!"Aqueous|HKF|"⟩,  -- HoCl3|1:Ho 3:Cl|0.0
  ⟨n!"HoCl4-", 1085, n!"Aqueous|HKF|"⟩,  -- HoCl4-|1:Ho 4:Cl|-1.0
  ⟨n!"HoH2PO4+2", 1086, n!"Aqueous|HKF|"⟩]  -- HoH2PO4+2|1:Ho 2:H 1:P 4:O|2.0

/-- `supcrt07.yaml:21297-23118`. -/
def part12 : List Row := [
  ⟨n!"HoNO3+2", 1087, n!"Aqueous|HKF|"⟩,  -- HoNO3+2|1:Ho 1:N 3:O|2.0
  ⟨n!"HoF+2", 1088, n!"Aqueous|HKF|"⟩,  -- HoF+2|1:Ho 1:F|2.0
  ⟨n!"HoF2+", 1089, n!"Aqueous|HKF|"⟩,  -- HoF2+|1:Ho 2:F|1.0
  ⟨n!"HoF3(aq)", 1090, n!"Aqueous|HKF|"⟩,  -- HoF3|1:Ho 3:F|0.0
  ⟨n!"HoF4-", 1091, n!"Aqueous|HKF|"⟩,  -- HoF4-|1:Ho 4:F|-1.0
  ⟨n!"HoOH+2", 1092, n!"Aqueous|HKF|"⟩,  -- HoOH+2|1:Ho 1:O 1:H|2.0
  ⟨n!"HoO+", 1093, n!"Aqueous|HKF|"⟩,  -- HoO+|1:Ho 1:O|1.0
  ⟨n!"HoO2H(aq)", 1094, n!"Aqueous|HKF|"⟩,  -- HoO2H|1:Ho 2:O 1:H|0.0
  ⟨n!"HoO2-", 1095, n!"Aqueous|HKF|"⟩,  -- HoO2-|1:Ho 2:O|-1.0
  ⟨n!"HoSO4+", 1096, n!"Aqueous|HKF|"⟩,  -- HoSO4+|1:Ho 1:S 4:O|1.0
  ⟨n!"ErCO3+", 1097, n!"Aqueous|HKF|"⟩,  -- ErCO3+|1:Er 1:C 3:O|1.0
  ⟨n!"ErHCO3+2", 1098, n!"Aqueous|HKF|"⟩,  -- ErHCO3+2|1:Er 1:H 1:C 3:O|2.0
  ⟨n!"ErCl+2", 1099, n!"Aqueous|HKF|"⟩,  -- ErCl+2|1:Er 1:Cl|2.0
  ⟨n!"ErCl2+", 1100, n!"Aqueous|HKF|"⟩,  -- ErCl2+|1:Er 2:Cl|1.0
  ⟨n!"ErCl3(aq)", 1101, n!"Aqueous|HKF|"⟩,  -- ErCl3|1:Er 3:Cl|0.0
  ⟨n!"ErCl4-", 1102, n!"Aqueous|HKF|"⟩,  -- ErCl4-|1:Er 4:Cl|-1.0
  ⟨n!"ErH2PO4+2", 1103, n!"Aqueous|HKF|"⟩,  -- ErH2PO4+2|1:Er 2:H 1:P 4:O|2.0
  ⟨n!"ErNO3+2", 1104, n!"Aqueous|HKF|"⟩,  -- ErNO3+2|1:Er 1:N 3:O|2.0
  ⟨n!"ErF+2", 1105, n!"Aqueous|HKF|"⟩,  -- ErF+2|1:Er 1:F|2.0
  ⟨n!"ErF2+", 1106, n!"Aqueous|HKF|"⟩,  -- ErF2+|1:Er 2:F|1.0
  ⟨n!"ErF3(aq)", 1107, n!"Aqueous|HKF|"⟩,  -- ErF3|1:Er 3:F|0.0
  ⟨n!"ErF4-", 1108, n!"Aqueous|HKF|"⟩,  -- ErF4-|1:Er 4:F|-1.0
  ⟨n!"ErOH+2", 1109, n!"Aqueous|HKF|"⟩,  -- ErOH+2|1:Er 1:O 1:H|2.0
  ⟨n!"ErO+", 1110, n!"Aqueous|HKF|"⟩,  -- ErO+|1:Er 1:O|1.0
  ⟨n!"ErO2H(aq)", 1111, n!"Aqueous|HKF|"⟩,  -- ErO2H|1:Er 2:O 1:H|0.0
  ⟨n!"ErO2-", 1112, n!"Aqueous|HKF|"⟩,  -- ErO2-|1:Er 2:O|-1.0
  ⟨n!"ErSO4+", 1113, n!"Aqueous|HKF|"⟩,  -- ErSO4+|1:Er 1:S 4:O|1.0
  ⟨n!"TmCO3+", 1114, n!"Aqueous|HKF|"⟩,  -- TmCO3+|1:Tm 1:C 3:O|1.0
  ⟨n!"TmHCO3+2", 1115, n!"Aqueous|HKF|"⟩,  -- TmHCO3+2|1:Tm 1:H 1:C 3:O|2.0
  ⟨n!"TmCl+2", 1116, n!"Aqueous|HKF|"⟩,  -- TmCl+2|1:Tm 1:Cl|2.0
  ⟨n!"TmCl2+", 1117, n!"Aqueous|HKF|"⟩,  -- TmCl2+|1:Tm 2:Cl|1.0
  ⟨n!"TmCl3(aq)", 1118, n!"Aqueous|HKF|"⟩,  -- TmCl3|1:Tm 3:Cl|0.0
  ⟨n!"TmCl4-", 1119, n!"Aqueous|HKF|"⟩,  -- TmCl4-|1:Tm 4:Cl|-1.0
  ⟨n!"TmH2PO4+2", 1120, n!"Aqueous|HKF|"⟩,  -- TmH2PO4+2|1:Tm 2:H 1:P 4:O|2.0
  ⟨n!"TmNO3+2", 1121, n!"Aqueous|HKF|"⟩,  -- TmNO3+2|1:Tm 1:N 3:O|2.0
  ⟨n!"TmF+2", 1122, n!"Aqueous|HKF|"⟩,  -- TmF+2|1:Tm 1:F|2.0
  ⟨n!"TmF2+", 1123, n!"Aqueous|HKF|"⟩,  -- TmF2+|1:Tm 2:F|1.0
  ⟨n!"TmF3(aq)", 1124, n!"Aqueous|HKF|"⟩,  -- TmF3|1:Tm 3:F|0.0
  ⟨n!"TmF4-", 1125, n!"Aqueous|HKF|"⟩,  -- TmF4-|1:Tm 4:F|-1.0
  ⟨n!"TmOH+2", 1126, n!"Aqueous|HKF|"⟩,  -- TmOH+2|1:Tm 1:O 1:H|2.0
  ⟨n!"TmO+", 1127, n!"Aqueous|HKF|"⟩,  -- TmO+|1:Tm 1:O|1.0
  ⟨n!"TmO2H(aq)", 1128, n!"Aqueous|HKF|"⟩,  -- TmO2H|1:Tm 2:O 1:H|0.0
  ⟨n!"TmO2-", 1129, n!"Aqueous|HKF|"⟩,  -- TmO2-|1:Tm 2:O|-1.0
  ⟨n!"TmSO4+", 1130, n!"Aqueous|HKF|"⟩,  -- TmSO4+|1:Tm 1:S 4:O|1.0
  ⟨n!"YbCO3+", 1131, n!"Aqueous|HKF|"⟩,  -- YbCO3+|1:Yb 1:C 3:O|1.0
  ⟨n!"YbOH+2", 1132, n!"Aqueous|HKF|"⟩,  -- YbOH+2|1:Yb 1:O 1:H|2.0
  ⟨n!"YbO+", 1133, n!"Aqueous|HKF|"⟩,  -- YbO+|1:Yb 1:O|1.0
  ⟨n!"YbO2H(aq)", 1134, n!"Aqueous|HKF|"⟩,  -- YbO2H|1:Yb 2:O 1:H|0.0
  ⟨n!"YbO2-", 1135, n!"Aqueous|HKF|"⟩,  -- YbO2-|1:Yb 2:O|-1.0
  ⟨n!"YbHCO3+2", 1136, n!"Aqueous|HKF|"⟩,  -- YbHCO3+2|1:Yb 1:H 1:C 3:O|2.0
  ⟨n!"YbCl+2", 1137, n!"Aqueous|HKF|"⟩,  -- YbCl+2|1:Yb 1:Cl|2.0
  ⟨n!"YbCl2+", 1138, n!"Aqueous|HKF|"⟩,  -- YbCl2+|1:Yb 2:Cl|1.0
  ⟨n!"YbCl3(aq)", 1139, n!"Aqueous|HKF|"⟩,  -- YbCl3|1:Yb 3:Cl|0.0
  ⟨n!"YbCl4-", 1140, n!"Aqueous|HKF|"⟩,  -- YbCl4-|1:Yb 4:Cl|-1.0
  ⟨n!"YbH2PO4+2", 1141, n!"Aqueous|HKF|"⟩,  -- YbH2PO4+2|1:Yb 2:H 1:P 4:O|2.0
  ⟨n!"YbNO3+2", 1142, n!"Aqueous|HKF|"⟩,  -- YbNO3+2|1:Yb 1:N 3:O|2.0
  ⟨n!"YbF+2", 1143, n!"Aqueous|HKF|"⟩,  -- YbF+2|1:Yb 1:F|2.0
  ⟨n!"YbF2+", 1144, n!"Aqueous|HKF|"⟩,  -- YbF2+|1:Yb 2:F|1.0
  ⟨n!"YbF3(aq)", 1145, n!"Aqueous|HKF|"⟩,  -- YbF3|1:Yb 3:F|0.0
  ⟨n!"YbF4-", 1146, n!"Aqueous|HKF|"⟩,  -- YbF4-|1:Yb 4:F|-1.0
  ⟨n!"YbSO4+", 1147, n!"Aqueous|HKF|"⟩,  -- YbSO4+|1:Yb 1:S 4:O|1.0
  ⟨n!"LuCO3+", 1148, n!"Aqueous|HKF|"⟩,  -- LuCO3+|1:Lu 1:C 3:O|1.0
  ⟨n!"LuOH+2", 1149, n!"Aqueous|HKF|"⟩,  -- LuOH+2|1:Lu 1:O 1:H|2.0
  ⟨n!"LuO+", 1150, n!"Aqueous|HKF|"⟩,  -- LuO+|1:Lu 1:O|1.0
  ⟨n!"LuO2H(aq)", 1151, n!"Aqueous|HKF|"⟩,  -- LuO2H|1:Lu 2:O 1:H|0.0
  ⟨n!"LuO2-", 1152, n!"Aqueous|HKF|"⟩,  -- LuO2-|1:Lu 2:O|-1.0
  ⟨n!"LuHCO3+2", 1153, n!"Aqueous|HKF|"⟩,  -- LuHCO3+2|1:Lu 1:H 1:C 3:O|2.0
  ⟨n!"LuCl+2", 1154, n!"Aqueous|HKF|"⟩,  -- LuCl+2|1:Lu 1:Cl|2.0
  ⟨n!"LuCl2+", 1155, n!"Aqueous|HKF|"⟩,  -- LuCl2+|1:Lu 2:Cl|1.0
  ⟨n!"LuCl3(aq)", 1156, n!"Aqueous|HKF|"⟩,  -- LuCl3|1:Lu 3:Cl|0.0
  ⟨n!"LuCl4-", 1157, n!"Aqueous|HKF|"⟩,  -- LuCl4-|1:Lu 4:Cl|-1.0
  ⟨n!"LuH2PO4+2", 2259, n!"Aqueous|HKF|"⟩,  -- LuH2PO4+2|1:Lu 1:H 1:P 4:O|2.0
  ⟨n!"LuNO3+2", 1158, n!"Aqueous|HKF|"⟩,  -- LuNO3+2|1:Lu 1:N 3:O|2.0
  ⟨n!"LuF+2", 1159, n!"Aqueous|HKF|"⟩,  -- LuF+2|1:Lu 1:F|2.0
  ⟨n!"LuF2+", 1160, n!"Aqueous|HKF|"⟩,  -- LuF2+|1:Lu 2:F|1.0
  ⟨n!"LuF3(aq)", 1161, n!"Aqueous|HKF|"⟩,  -- LuF3|1:Lu 3:F|0.0
  ⟨n!"LuF4-", 1162, n!"Aqueous|HKF|"⟩,  -- LuF4-|1:Lu 4:F|-1.0
  ⟨n!"LuSO4+", 1163, n!"Aqueous|HKF|"⟩,  -- LuSO4+|1:Lu 1:S 4:O|1.0
  ⟨n!"Li(Lac)(aq)", 1164, n!"Aqueous|HKF|"⟩,  -- LiCH3CH2OCO2|1:Li 3:C 5:H 3:O|0.0
  ⟨n!"Mg(Lac)+", 1165, n!"Aqueous|HKF|"⟩,  -- MgCH3CH2OCO2+|1:Mg 3:C 5:H 3:O|1.0
  ⟨n!"Mg(Lac)2(aq)", 1166, n!"Aqueous|HKF|"⟩,  -- Mg(CH3CH2OCO2)2|1:Mg 6:C 10:H 6:O|0.0
  ⟨n!"Ca(Lac)+", 1167, n!"Aqueous|HKF|"⟩,  -- CaCH3CH2OCO2+|1:Ca 3:C 5:H 3:O|1.0
  ⟨n!"Ca(Lac)2(aq)", 1168, n!"Aqueous|HKF|"⟩,  -- Ca(CH3CH2OCO2)2|1:Ca 6:C 10:H 6:O|0.0
  ⟨n!"Sr(Lac)+", 1169, n!"Aqueous|HKF|"⟩,  -- SrCH3CH2OCO2+|1:Sr 3:C 5:H 3:O|1.0
  ⟨n!"Sr(Lac)2(aq)", 1170, n!"Aqueous|HKF|"⟩,  -- Sr(CH3CH2OCO2)2|1:Sr 6:C 10:H 6:O|0.0
  ⟨n!"Ba(Lac)+", 1171, n!"Aqueous|HKF|"⟩,  -- BaCH3CH2OCO2+|1:Ba 3:C 5:H 3:O|1.0
  ⟨n!"Ba(Lac)2(aq)", 1172, n!"Aqueous|HKF|"⟩,  -- Ba(CH3CH2OCO2)2|1:Ba 6:C 10:H 6:O|0.0
  ⟨n!"Mn(Lac)+", 1173, n!"Aqueous|HKF|"⟩,  -- MnCH3CH2OCO2+|1:Mn 3:C 5:H 3:O|1.0
  ⟨n!"Mn(Lac)2(aq)", 1174, n!"Aqueous|HKF|"⟩,  -- Mn(CH3CH2OCO2)2|1:Mn 6:C 10:H 6:O|0.0
  ⟨n!"Co(Lac)+", 1175, n!"Aqueous|HKF|"⟩,  -- CoCH3CH2OCO2+|1:Co 3:C 5:H 3:O|1.0
  ⟨n!"Co(Lac)2(aq)", 1176, n!"Aqueous|HKF|"⟩,  -- Co(CH3CH2OCO2)2|1:Co 6:C 10:H 6:O|0.0
  ⟨n!"Ni(Lac)+", 1177, n!"Aqueous|HKF|"⟩,  -- NiCH3CH2OCO2+|1:Ni 3:C 5:H 3:O|1.0
  ⟨n!"Ni(Lac)2(aq)", 1178, n!"Aqueous|HKF|"⟩,  -- Ni(CH3CH2OCO2)2|1:Ni 6:C 10:H 6:O|0.0
  ⟨n!"Cu(Lac)+", 1179, n!"Aqueous|HKF|"⟩,  -- CuCH3CH2OCO2+|1:Cu 3:C 5:H 3:O|1.0
  ⟨n!"Cu(Lac)2(aq)", 1180, n!"Aqueous|HKF|"⟩,  -- Cu(CH3CH2OCO2)2|1:Cu 6:C 10:H 6:O|0.0
  ⟨n!"Zn(Lac)+", 1181, n!"Aqueous|HKF|"⟩,  -- ZnCH3CH2OCO2+|1:Zn 3:C 5:H 3:O|1.0
  ⟨n!"Zn(Lac)2(aq)", 1182, n!"Aqueous|HKF|"⟩,  -- Zn(CH3CH2OCO2)2|1:Zn 6:C 10:H 6:O|0.0
  ⟨n!"Cd(Lac)+", 1183, n!"Aqueous|HKF|"⟩,  -- CdCH3CH2OCO2+|1:Cd 3:C 5:H 3:O|1.0
  ⟨n!"Cd(Lac)2(aq)", 1184, n!"Aqueous|HKF|"⟩,  -- Cd(CH3CH2OCO2)2|1:Cd 6:C 10:H 6:O|0.0
  ⟨n!"La(Lac)+2", 1185, n!"Aqueous|HKF|"⟩]  -- LaCH3CH2OCO2+2|1:La 3:C 5:H 3:O|2.0

/-- `supcrt07.yaml:23119-25018`. -/
def part13 : List Row := [
  ⟨n!"Lu(Lac)+2", 1186, n!"Aqueous|HKF|"⟩,  -- LuCH3CH2OCO2+2|1:Lu 3:C 5:H 3:O|2.0
  ⟨n!"Na(Lac)(aq)", 1187, n!"Aqueous|HKF|"⟩,  -- NaCH3CH2OCO2|1:Na 3:C 5:H 3:O|0.0
  ⟨n!"Na(Lac)2-", 1188, n!"Aqueous|HKF|"⟩,  -- Na(CH3CH2OCO2)2-|1:Na 6:C 10:H 6:O|-1.0
  ⟨n!"K(Lac)(aq)", 1189, n!"Aqueous|HKF|"⟩,  -- KCH3CH2OCO2|1:K 3:C 5:H 3:O|0.0
  ⟨n!"K(Lac)2-", 1190, n!"Aqueous|HKF|"⟩,  -- K(CH3CH2OCO2)2-|1:K 6:C 10:H 6:O|-1.0
  ⟨n!"Pb(Lac)+", 1191, n!"Aqueous|HKF|"⟩,  -- PbCH3CH2OCO2+|1:Pb 3:C 5:H 3:O|1.0
  ⟨n!"Pb(Lac)2(aq)", 1192, n!"Aqueous|HKF|"⟩,  -- Pb(CH3CH2OCO2)2|1:Pb 6:C 10:H 6:O|0.0
  ⟨n!"Fe(Lac)+", 1193, n!"Aqueous|HKF|"⟩,  -- FeCH3CH2OCO2+|1:Fe 3:C 5:H 3:O|1.0
  ⟨n!"Fe(Lac)2(aq)", 1194, n!"Aqueous|HKF|"⟩,  -- Fe(CH3CH2OCO2)2|1:Fe 6:C 10:H 6:O|0.0
  ⟨n!"Eu(Lac)+", 1195, n!"Aqueous|HKF|"⟩,  -- Eu(CH3CH2OCO2)+|1:Eu 3:C 5:H 3:O|1.0
  ⟨n!"Eu(Lac)2(aq)", 1196, n!"Aqueous|HKF|"⟩,  -- Eu(CH3CH2OCO2)2|1:Eu 6:C 10:H 6:O|0.0
  ⟨n!"Li(Glyc)(aq)", 1197, n!"Aqueous|HKF|"⟩,  -- LiCH3OCO2|1:Li 2:C 3:H 3:O|0.0
  ⟨n!"Mg(Glyc)+", 1198, n!"Aqueous|HKF|"⟩,  -- MgCH3OCO2+|1:Mg 2:C 3:H 3:O|1.0
  ⟨n!"Mg(Glyc)2(aq)", 1199, n!"Aqueous|HKF|"⟩,  -- Mg(CH3OCO2)2|1:Mg 4:C 6:H 6:O|0.0
  ⟨n!"Ca(Glyc)+", 1200, n!"Aqueous|HKF|"⟩,  -- CaCH3OCO2+|1:Ca 2:C 3:H 3:O|1.0
  ⟨n!"Ca(Glyc)2(aq)", 1201, n!"Aqueous|HKF|"⟩,  -- Ca(CH3OCO2)2|1:Ca 4:C 6:H 6:O|0.0
  ⟨n!"Sr(Glyc)+", 1202, n!"Aqueous|HKF|"⟩,  -- SrCH3OCO2+|1:Sr 2:C 3:H 3:O|1.0
  ⟨n!"Sr(Glyc)2(aq)", 1203, n!"Aqueous|HKF|"⟩,  -- Sr(CH3OCO2)2|1:Sr 4:C 6:H 6:O|0.0
  ⟨n!"Ba(Glyc)+", 1204, n!"Aqueous|HKF|"⟩,  -- BaCH3OCO2+|1:Ba 2:C 3:H 3:O|1.0
  ⟨n!"Ba(Glyc)2(aq)", 1205, n!"Aqueous|HKF|"⟩,  -- Ba(CH3OCO2)2|1:Ba 4:C 6:H 6:O|0.0
  ⟨n!"Mn(Glyc)+", 1206, n!"Aqueous|HKF|"⟩,  -- MnCH3OCO2+|1:Mn 2:C 3:H 3:O|1.0
  ⟨n!"Mn(Glyc)2(aq)", 1207, n!"Aqueous|HKF|"⟩,  -- Mn(CH3OCO2)2|1:Mn 4:C 6:H 6:O|0.0
  ⟨n!"Co(Glyc)+", 1208, n!"Aqueous|HKF|"⟩,  -- CoCH3OCO2+|1:Co 2:C 3:H 3:O|1.0
  ⟨n!"Co(Glyc)2(aq)", 1209, n!"Aqueous|HKF|"⟩,  -- Co(CH3OCO2)2|1:Co 4:C 6:H 6:O|0.0
  ⟨n!"Ni(Glyc)+", 1210, n!"Aqueous|HKF|"⟩,  -- NiCH3OCO2+|1:Ni 2:C 3:H 3:O|1.0
  ⟨n!"Ni(Glyc)2(aq)", 1211, n!"Aqueous|HKF|"⟩,  -- Ni(CH3OCO2)2|1:Ni 4:C 6:H 6:O|0.0
  ⟨n!"Cu(Glyc)+", 1212, n!"Aqueous|HKF|"⟩,  -- CuCH3OCO2+|1:Cu 2:C 3:H 3:O|1.0
  ⟨n!"Cu(Glyc)2(aq)", 1213, n!"Aqueous|HKF|"⟩,  -- Cu(CH3OCO2)2|1:Cu 4:C 6:H 6:O|0.0
  ⟨n!"Zn(Glyc)+", 1214, n!"Aqueous|HKF|"⟩,  -- ZnCH3OCO2+|1:Zn 2:C 3:H 3:O|1.0
  ⟨n!"Zn(Glyc)2(aq)", 1215, n!"Aqueous|HKF|"⟩,  -- Zn(CH3OCO2)2|1:Zn 4:C 6:H 6:O|0.0
  ⟨n!"Cd(Glyc)+", 1216, n!"Aqueous|HKF|"⟩,  -- CdCH3OCO2+|1:Cd 2:C 3:H 3:O|1.0
  ⟨n!"Cd(Glyc)2(aq)", 1217, n!"Aqueous|HKF|"⟩,  -- Cd(CH3OCO2)2|1:Cd 4:C 6:H 6:O|0.0
  ⟨n!"Eu(Glyc)+", 1218, n!"Aqueous|HKF|"⟩,  -- EuCH3OCO2+|1:Eu 2:C 3:H 3:O|1.0
  ⟨n!"Eu(Glyc)2(aq)", 1219, n!"Aqueous|HKF|"⟩,  -- Eu(CH3OCO2)2|1:Eu 4:C 6:H 6:O|0.0
  ⟨n!"Na(Glyc)(aq)", 1220, n!"Aqueous|HKF|"⟩,  -- Na(CH3OCO2)|1:Na 2:C 3:H 3:O|0.0
  ⟨n!"Na(Glyc)2-", 1221, n!"Aqueous|HKF|"⟩,  -- Na(CH3OCO2)2-|1:Na 4:C 6:H 6:O|-1.0
  ⟨n!"K(Glyc)(aq)", 1222, n!"Aqueous|HKF|"⟩,  -- KCH3OCO2|1:K 2:C 3:H 3:O|0.0
  ⟨n!"K(Glyc)2-", 1223, n!"Aqueous|HKF|"⟩,  -- K(CH3OCO2)2-|1:K 4:C 6:H 6:O|-1.0
  ⟨n!"Pb(Glyc)+", 1224, n!"Aqueous|HKF|"⟩,  -- PbCH3OCO2+|1:Pb 2:C 3:H 3:O|1.0
  ⟨n!"Pb(Glyc)2(aq)", 1225, n!"Aqueous|HKF|"⟩,  -- Pb(CH3OCO2)2|1:Pb 4:C 6:H 6:O|0.0
  ⟨n!"Fe(Glyc)+", 1226, n!"Aqueous|HKF|"⟩,  -- FeCH3OCO2+|1:Fe 2:C 3:H 3:O|1.0
  ⟨n!"Fe(Glyc)2(aq)", 1227, n!"Aqueous|HKF|"⟩,  -- Fe(CH3OCO2)2|1:Fe 4:C 6:H 6:O|0.0
  ⟨n!"Mg(For)+", 1279, n!"Aqueous|HKF|"⟩,  -- MgCHO2+|1:Mg 1:C 1:H 2:O|1.0
  ⟨n!"Mg(For)2(aq)", 1280, n!"Aqueous|HKF|"⟩,  -- Mg(CHO2)2|1:Mg 2:C 2:H 4:O|0.0
  ⟨n!"Ca(For)+", 1281, n!"Aqueous|HKF|"⟩,  -- CaCHO2+|1:Ca 1:C 1:H 2:O|1.0
  ⟨n!"Ca(For)2(aq)", 1282, n!"Aqueous|HKF|"⟩,  -- Ca(CHO2)2|1:Ca 2:C 2:H 4:O|0.0
  ⟨n!"Sr(For)+", 1283, n!"Aqueous|HKF|"⟩,  -- SrCHO2+|1:Sr 1:C 1:H 2:O|1.0
  ⟨n!"Sr(For)2(aq)", 1284, n!"Aqueous|HKF|"⟩,  -- Sr(CHO2)2|1:Sr 2:C 2:H 4:O|0.0
  ⟨n!"Ba(For)+", 1285, n!"Aqueous|HKF|"⟩,  -- BaCHO2+|1:Ba 1:C 1:H 2:O|1.0
  ⟨n!"Ba(For)2(aq)", 1286, n!"Aqueous|HKF|"⟩,  -- Ba(CHO2)2|1:Ba 2:C 2:H 4:O|0.0
  ⟨n!"Cu(For)+", 1287, n!"Aqueous|HKF|"⟩,  -- CuCHO2+|1:Cu 1:C 1:H 2:O|1.0
  ⟨n!"Cu(For)2(aq)", 1288, n!"Aqueous|HKF|"⟩,  -- Cu(CHO2)2|1:Cu 2:C 2:H 4:O|0.0
  ⟨n!"Cd(For)+", 1289, n!"Aqueous|HKF|"⟩,  -- CdCHO2+|1:Cd 1:C 1:H 2:O|1.0
  ⟨n!"Cd(For)2(aq)", 1290, n!"Aqueous|HKF|"⟩,  -- Cd(CHO2)2|1:Cd 2:C 2:H 4:O|0.0
  ⟨n!"Na(For)(aq)", 1291, n!"Aqueous|HKF|"⟩,  -- NaCHO2|1:Na 1:C 1:H 2:O|0.0
  ⟨n!"Na(For)2-", 1557, n!"Aqueous|HKF|"⟩,  -- Na(CHO2)2-|1:Na 2:C 2:H 4:O|-1.0
  ⟨n!"K(For)(aq)", 1292, n!"Aqueous|HKF|"⟩,  -- KCHO2|1:K 1:C 1:H 2:O|0.0
  ⟨n!"K(For)2-", 1293, n!"Aqueous|HKF|"⟩,  -- K(CHO2)2-|1:K 2:C 2:H 4:O|-1.0
  ⟨n!"La(For)+2", 1294, n!"Aqueous|HKF|"⟩,  -- LaCHO2+2|1:La 1:C 1:H 2:O|2.0
  ⟨n!"La(For)2+", 1295, n!"Aqueous|HKF|"⟩,  -- La(CHO2)2+|1:La 2:C 2:H 4:O|1.0
  ⟨n!"Eu(For)+", 1296, n!"Aqueous|HKF|"⟩,  -- EuCHO2+|1:Eu 1:C 1:H 2:O|1.0
  ⟨n!"Eu(For)2(aq)", 1297, n!"Aqueous|HKF|"⟩,  -- Eu(CHO2)2|1:Eu 2:C 2:H 4:O|0.0
  ⟨n!"U(For)+2", 1298, n!"Aqueous|HKF|"⟩,  -- UCHO2+2|1:U 1:C 1:H 2:O|2.0
  ⟨n!"U(For)2+", 1299, n!"Aqueous|HKF|"⟩,  -- U(CHO2)2+|1:U 2:C 2:H 4:O|1.0
  ⟨n!"Eu(For)+2", 1300, n!"Aqueous|HKF|"⟩,  -- EuCHO2+2|1:Eu 1:C 1:H 2:O|2.0
  ⟨n!"Eu(For)2+", 1301, n!"Aqueous|HKF|"⟩,  -- Eu(CHO2)2+|1:Eu 2:C 2:H 4:O|1.0
  ⟨n!"Gd(For)+2", 1302, n!"Aqueous|HKF|"⟩,  -- GdCHO2+2|1:Gd 1:C 1:H 2:O|2.0
  ⟨n!"Gd(For)2+", 1303, n!"Aqueous|HKF|"⟩,  -- Gd(CHO2)2+|1:Gd 2:C 2:H 4:O|1.0
  ⟨n!"Yb(For)+2", 1304, n!"Aqueous|HKF|"⟩,  -- YbCHO2+2|1:Yb 1:C 1:H 2:O|2.0
  ⟨n!"Yb(For)2+", 1305, n!"Aqueous|HKF|"⟩,  -- Yb(CHO2)2+|1:Yb 2:C 2:H 4:O|1.0
  ⟨n!"Pb(For)+", 1306, n!"Aqueous|HKF|"⟩,  -- PbCHO2+|1:Pb 1:C 1:H 2:O|1.0
  ⟨n!"Pb(For)2(aq)", 1307, n!"Aqueous|HKF|"⟩,  -- Pb(CHO2)2|1:Pb 2:C 2:H 4:O|0.0
  ⟨n!"Mn(For)+", 1308, n!"Aqueous|HKF|"⟩,  -- MnCHO2+|1:Mn 1:C 1:H 2:O|1.0
  ⟨n!"Mn(For)2(aq)", 1309, n!"Aqueous|HKF|"⟩,  -- Mn(CHO2)2|1:Mn 2:C 2:H 4:O|0.0
  ⟨n!"Co(For)+", 1310, n!"Aqueous|HKF|"⟩,  -- CoCHO2+|1:Co 1:C 1:H 2:O|1.0
  ⟨n!"Co(For)2(aq)", 1311, n!"Aqueous|HKF|"⟩,  -- Co(CHO2)2|1:Co 2:C 2:H 4:O|0.0
  ⟨n!"Ni(For)+", 1312, n!"Aqueous|HKF|"⟩,  -- NiCHO2+|1:Ni 1:C 1:H 2:O|1.0
  ⟨n!"Ni(For)2(aq)", 1313, n!"Aqueous|HKF|"⟩,  -- Ni(CHO2)2|1:Ni 2:C 2:H 4:O|0.0
  ⟨n!"Zn(For)+", 1314, n!"Aqueous|HKF|"⟩,  -- ZnCHO2+|1:Zn 1:C 1:H 2:O|1.0
  ⟨n!"Zn(For)2(aq)", 1315, n!"Aqueous|HKF|"⟩,  -- Zn(CHO2)2|1:Zn 2:C 2:H 4:O|0.0
  ⟨n!"Fe(For)+", 1316, n!"Aqueous|HKF|"⟩,  -- FeCHO2+|1:Fe 1:C 1:H 2:O|1.0
  ⟨n!"Fe(For)2(aq)", 1317, n!"Aqueous|HKF|"⟩,  -- Fe(CHO2)2|1:Fe 2:C 2:H 4:O|0.0
  ⟨n!"Mg(Prop)+", 1318, n!"Aqueous|HKF|"⟩,  -- MgCH3CH2CO2+|1:Mg 3:C 5:H 2:O|1.0
  ⟨n!"Mg(Prop)2(aq)", 1319, n!"Aqueous|HKF|"⟩,  -- Mg(CH3CH2CO2)2|1:Mg 6:C 10:H 4:O|0.0
  ⟨n!"Ca(Prop)+", 1320, n!"Aqueous|HKF|"⟩,  -- CaCH3CH2CO2+|1:Ca 3:C 5:H 2:O|1.0
  ⟨n!"Ca(Prop)2(aq)", 1321, n!"Aqueous|HKF|"⟩,  -- Ca(CH3CH2CO2)2|1:Ca 6:C 10:H 4:O|0.0
  ⟨n!"Sr(Prop)+", 1322, n!"Aqueous|HKF|"⟩,  -- SrCH3CH2CO2+|1:Sr 3:C 5:H 2:O|1.0
  ⟨n!"Sr(Prop)2(aq)", 1323, n!"Aqueous|HKF|"⟩,  -- Sr(CH3CH2CO2)2|1:Sr 6:C 10:H 4:O|0.0
  ⟨n!"Ba(Prop)+", 1324, n!"Aqueous|HKF|"⟩,  -- BaCH3CH2CO2+|1:Ba 3:C 5:H 2:O|1.0
  ⟨n!"Ba(Prop)2(aq)", 1325, n!"Aqueous|HKF|"⟩,  -- Ba(CH3CH2CO2)2|1:Ba 6:C 10:H 4:O|0.0
  ⟨n!"Eu(Prop)+", 1326, n!"Aqueous|HKF|"⟩,  -- EuCH3CH2CO2+|1:Eu 3:C 5:H 2:O|1.0
  ⟨n!"Eu(Prop)2(aq)", 1327, n!"Aqueous|HKF|"⟩,  -- Eu(CH3CH2CO2)2|1:Eu 6:C 10:H 4:O|0.0
  ⟨n!"Cu(Prop)+", 1328, n!"Aqueous|HKF|"⟩,  -- CuCH3CH2CO2+|1:Cu 3:C 5:H 2:O|1.0
  ⟨n!"Cu(Prop)2(aq)", 1329, n!"Aqueous|HKF|"⟩,  -- Cu(CH3CH2CO2)2|1:Cu 6:C 10:H 4:O|0.0
  ⟨n!"Cd(Prop)+", 1330, n!"Aqueous|HKF|"⟩,  -- CdCH3CH2CO2+|1:Cd 3:C 5:H 2:O|1.0
  ⟨n!"Cd(Prop)2(aq)", 1331, n!"Aqueous|HKF|"⟩,  -- Cd(CH3CH2CO2)2|1:Cd 6:C 10:H 4:O|0.0
  ⟨n!"Pb(Prop)+", 1332, n!"Aqueous|HKF|"⟩,  -- PbCH3CH2CO2+|1:Pb 3:C 5:H 2:O|1.0
  ⟨n!"Pb(Prop)2(aq)", 1333, n!"Aqueous|HKF|"⟩,  -- Pb(CH3CH2CO2)2|1:Pb 6:C 10:H 4:O|0.0
  ⟨n!"Na(Prop)(aq)", 1334, n!"Aqueous|HKF|"⟩,  -- NaCH3CH2CO2|1:Na 3:C 5:H 2:O|0.0
  ⟨n!"Na(Prop)2-", 1335, n!"Aqueous|HKF|"⟩]  -- Na(CH3CH2CO2)2-|1:Na 6:C 10:H 4:O|-1.0

/-- `supcrt07.yaml:25019-26918`. -/
def part14 : List Row := [
  ⟨n!"K(Prop)(aq)", 1336, n!"Aqueous|HKF|"⟩,  -- KCH3CH2CO2|1:K 3:C 5:H 2:O|0.0
  ⟨n!"K(Prop)2-", 1337, n!"Aqueous|HKF|"⟩,  -- K(CH3CH2CO2)2-|1:K 6:C 10:H 4:O|-1.0
  ⟨n!"La(Prop)+2", 1338, n!"Aqueous|HKF|"⟩,  -- LaCH3CH2CO2+2|1:La 3:C 5:H 2:O|2.0
  ⟨n!"La(Prop)2+", 1339, n!"Aqueous|HKF|"⟩,  -- La(CH3CH2CO2)2+|1:La 6:C 10:H 4:O|1.0
  ⟨n!"Eu(Prop)+2", 1340, n!"Aqueous|HKF|"⟩,  -- EuCH3CH2CO2+2|1:Eu 3:C 5:H 2:O|2.0
  ⟨n!"Eu(Prop)2+", 1341, n!"Aqueous|HKF|"⟩,  -- Eu(CH3CH2CO2)2+|1:Eu 6:C 10:H 4:O|1.0
  ⟨n!"Gd(Prop)+2", 1342, n!"Aqueous|HKF|"⟩,  -- GdCH3CH2CO2+2|1:Gd 3:C 5:H 2:O|2.0
  ⟨n!"Gd(Prop)2+", 1343, n!"Aqueous|HKF|"⟩,  -- Gd(CH3CH2CO2)2+|1:Gd 6:C 10:H 4:O|1.0
  ⟨n!"Yb(Prop)+2", 1344, n!"Aqueous|HKF|"⟩,  -- YbCH3CH2CO2+2|1:Yb 3:C 5:H 2:O|2.0
  ⟨n!"Yb(Prop)2+", 1345, n!"Aqueous|HKF|"⟩,  -- Yb(CH3CH2CO2)2+|1:Yb 6:C 10:H 4:O|1.0
  ⟨n!"U(Prop)+2", 1346, n!"Aqueous|HKF|"⟩,  -- UCH3CH2CO2+2|1:U 3:C 5:H 2:O|2.0
  ⟨n!"U(Prop)2+", 1347, n!"Aqueous|HKF|"⟩,  -- U(CH3CH2CO2)2+|1:U 6:C 10:H 4:O|1.0
  ⟨n!"Co(Prop)+", 1348, n!"Aqueous|HKF|"⟩,  -- CoCH3CH2CO2+|1:Co 3:C 5:H 2:O|1.0
  ⟨n!"Co(Prop)2(aq)", 1349, n!"Aqueous|HKF|"⟩,  -- Co(CH3CH2CO2)2|1:Co 6:C 10:H 4:O|0.0
  ⟨n!"Ni(Prop)+", 1350, n!"Aqueous|HKF|"⟩,  -- NiCH3CH2CO2+|1:Ni 3:C 5:H 2:O|1.0
  ⟨n!"Ni(Prop)2(aq)", 1351, n!"Aqueous|HKF|"⟩,  -- Ni(CH3CH2CO2)2|1:Ni 6:C 10:H 4:O|0.0
  ⟨n!"Zn(Prop)+", 1352, n!"Aqueous|HKF|"⟩,  -- ZnCH3CH2CO2+|1:Zn 3:C 5:H 2:O|1.0
  ⟨n!"Zn(Prop)2(aq)", 1353, n!"Aqueous|HKF|"⟩,  -- Zn(CH3CH2CO2)2|1:Zn 6:C 10:H 4:O|0.0
  ⟨n!"Fe(Prop)+", 1354, n!"Aqueous|HKF|"⟩,  -- FeCH3CH2CO2+|1:Fe 3:C 5:H 2:O|1.0
  ⟨n!"Fe(Prop)2(aq)", 1355, n!"Aqueous|HKF|"⟩,  -- Fe(CH3CH2CO2)2|1:Fe 6:C 10:H 4:O|0.0
  ⟨n!"Mn(Prop)+", 1356, n!"Aqueous|HKF|"⟩,  -- MnCH3CH2CO2+|1:Mn 3:C 5:H 2:O|1.0
  ⟨n!"Mn(Prop)2(aq)", 1357, n!"Aqueous|HKF|"⟩,  -- Mn(CH3CH2CO2)2|1:Mn 6:C 10:H 4:O|0.0
  ⟨n!"U(But)+2", 1358, n!"Aqueous|HKF|"⟩,  -- UCH3(CH2)2CO2+2|1:U 4:C 7:H 2:O|2.0
  ⟨n!"U(But)2+", 1359, n!"Aqueous|HKF|"⟩,  -- U(CH3CH2CH2CO2)2+|1:U 8:C 14:H 4:O|1.0
  ⟨n!"Eu(But)+", 1360, n!"Aqueous|HKF|"⟩,  -- EuCH3(CH2)2CO2+|1:Eu 4:C 7:H 2:O|1.0
  ⟨n!"Eu(But)2(aq)", 1361, n!"Aqueous|HKF|"⟩,  -- Eu(CH3CH2CH2CO2)2|1:Eu 8:C 14:H 4:O|0.0
  ⟨n!"Mg(But)+", 1362, n!"Aqueous|HKF|"⟩,  -- MgCH3(CH2)2CO2+|1:Mg 4:C 7:H 2:O|1.0
  ⟨n!"Mg(But)2(aq)", 1363, n!"Aqueous|HKF|"⟩,  -- Mg(CH3CH2CH2CO2)2|1:Mg 8:C 14:H 4:O|0.0
  ⟨n!"Ca(But)+", 1364, n!"Aqueous|HKF|"⟩,  -- CaCH3(CH2)2CO2+|1:Ca 4:C 7:H 2:O|1.0
  ⟨n!"Ca(But)2(aq)", 1365, n!"Aqueous|HKF|"⟩,  -- Ca(CH3CH2CH2CO2)2|1:Ca 8:C 14:H 4:O|0.0
  ⟨n!"Sr(But)+", 1366, n!"Aqueous|HKF|"⟩,  -- SrCH3(CH2)2CO2+|1:Sr 4:C 7:H 2:O|1.0
  ⟨n!"Sr(But)2(aq)", 2262, n!"Aqueous|HKF|"⟩,  -- Sr(CH3CH2CH2CO2)2|1:Sr 8:C 17:H 4:O|0.0
  ⟨n!"Ba(But)+", 1367, n!"Aqueous|HKF|"⟩,  -- BaCH3(CH2)2CO2+|1:Ba 4:C 7:H 2:O|1.0
  ⟨n!"Ba(But)2(aq)", 1368, n!"Aqueous|HKF|"⟩,  -- Ba(CH3CH2CH2CO2)2|1:Ba 8:C 14:H 4:O|0.0
  ⟨n!"Cu(But)+", 1369, n!"Aqueous|HKF|"⟩,  -- CuCH3(CH2)2CO2+|1:Cu 4:C 7:H 2:O|1.0
  ⟨n!"Cu(But)2(aq)", 1370, n!"Aqueous|HKF|"⟩,  -- Cu(CH3CH2CH2CO2)2|1:Cu 8:C 14:H 4:O|0.0
  ⟨n!"Cd(But)+", 1371, n!"Aqueous|HKF|"⟩,  -- CdCH3(CH2)2CO2+|1:Cd 4:C 7:H 2:O|1.0
  ⟨n!"Cd(But)2(aq)", 1372, n!"Aqueous|HKF|"⟩,  -- Cd(CH3CH2CH2CO2)2|1:Cd 8:C 14:H 4:O|0.0
  ⟨n!"Na(But)(aq)", 1373, n!"Aqueous|HKF|"⟩,  -- NaCH3(CH2)2CO2|1:Na 4:C 7:H 2:O|0.0
  ⟨n!"Na(But)2-", 1374, n!"Aqueous|HKF|"⟩,  -- Na(CH3CH2CH2CO2)2-|1:Na 8:C 14:H 4:O|-1.0
  ⟨n!"K(But)(aq)", 1375, n!"Aqueous|HKF|"⟩,  -- KCH3(CH2)2CO2|1:K 4:C 7:H 2:O|0.0
  ⟨n!"K(But)2-", 1376, n!"Aqueous|HKF|"⟩,  -- K(CH3CH2CH2CO2)2-|1:K 8:C 14:H 4:O|-1.0
  ⟨n!"La(But)+2", 1377, n!"Aqueous|HKF|"⟩,  -- LaCH3(CH2)2CO2+2|1:La 4:C 7:H 2:O|2.0
  ⟨n!"La(But)2+", 1378, n!"Aqueous|HKF|"⟩,  -- La(CH3CH2CH2CO2)2+|1:La 8:C 14:H 4:O|1.0
  ⟨n!"Eu(But)+2", 1379, n!"Aqueous|HKF|"⟩,  -- EuCH3(CH2)2CO2+2|1:Eu 4:C 7:H 2:O|2.0
  ⟨n!"Eu(But)2+", 1380, n!"Aqueous|HKF|"⟩,  -- Eu(CH3CH2CH2CO2)2+|1:Eu 8:C 14:H 4:O|1.0
  ⟨n!"Gd(But)+2", 1381, n!"Aqueous|HKF|"⟩,  -- GdCH3(CH2)2CO2+2|1:Gd 4:C 7:H 2:O|2.0
  ⟨n!"Gd(But)2+", 1382, n!"Aqueous|HKF|"⟩,  -- Gd(CH3CH2CH2CO2)2+|1:Gd 8:C 14:H 4:O|1.0
  ⟨n!"Yb(But)+2", 1383, n!"Aqueous|HKF|"⟩,  -- YbCH3(CH2)2CO2+2|1:Yb 4:C 7:H 2:O|2.0
  ⟨n!"Yb(But)2+", 1384, n!"Aqueous|HKF|"⟩,  -- Yb(CH3CH2CH2CO2)2+|1:Yb 8:C 14:H 4:O|1.0
  ⟨n!"Pb(But)+", 1385, n!"Aqueous|HKF|"⟩,  -- PbCH3(CH2)2CO2+|1:Pb 4:C 7:H 2:O|1.0
  ⟨n!"Pb(But)2(aq)", 1386, n!"Aqueous|HKF|"⟩,  -- Pb(CH3CH2CH2CO2)2|1:Pb 8:C 14:H 4:O|0.0
  ⟨n!"Mn(But)+", 1387, n!"Aqueous|HKF|"⟩,  -- MnCH3(CH2)2CO2+|1:Mn 4:C 7:H 2:O|1.0
  ⟨n!"Mn(But)2(aq)", 1388, n!"Aqueous|HKF|"⟩,  -- Mn(CH3CH2CH2CO2)2|1:Mn 8:C 14:H 4:O|0.0
  ⟨n!"Ni(But)+", 1389, n!"Aqueous|HKF|"⟩,  -- NiCH3(CH2)2CO2+|1:Ni 4:C 7:H 2:O|1.0
  ⟨n!"Ni(But)2(aq)", 1390, n!"Aqueous|HKF|"⟩,  -- Ni(CH3CH2CH2CO2)2|1:Ni 8:C 14:H 4:O|0.0
  ⟨n!"Zn(But)+", 1391, n!"Aqueous|HKF|"⟩,  -- ZnCH3(CH2)2CO2+|1:Zn 4:C 7:H 2:O|1.0
  ⟨n!"Zn(But)2(aq)", 1392, n!"Aqueous|HKF|"⟩,  -- Zn(CH3CH2CH2CO2)2|1:Zn 8:C 14:H 4:O|0.0
  ⟨n!"Fe(But)+", 1393, n!"Aqueous|HKF|"⟩,  -- FeCH3(CH2)2CO2+|1:Fe 4:C 7:H 2:O|1.0
  ⟨n!"Fe(But)2(aq)", 1394, n!"Aqueous|HKF|"⟩,  -- Fe(CH3CH2CH2CO2)2|1:Fe 8:C 14:H 4:O|0.0
  ⟨n!"Co(But)+", 1395, n!"Aqueous|HKF|"⟩,  -- CoCH3(CH2)2CO2+|1:Co 4:C 7:H 2:O|1.0
  ⟨n!"Co(But)2(aq)", 1396, n!"Aqueous|HKF|"⟩,  -- Co(CH3CH2CH2CO2)2|1:Co 8:C 14:H 4:O|0.0
  ⟨n!"Ca(Pent)+", 1397, n!"Aqueous|HKF|"⟩,  -- CaCH3(CH2)3CO2+|1:Ca 5:C 9:H 2:O|1.0
  ⟨n!"Ca(Pent)2(aq)", 1398, n!"Aqueous|HKF|"⟩,  -- Ca(CH3CH2CH2CH2CO2)2|1:Ca 10:C 18:H 4:O|0.0
  ⟨n!"Sr(Pent)+", 1399, n!"Aqueous|HKF|"⟩,  -- SrCH3(CH2)3CO2+|1:Sr 5:C 9:H 2:O|1.0
  ⟨n!"Sr(Pent)2(aq)", 1400, n!"Aqueous|HKF|"⟩,  -- Sr(CH3CH2CH2CH2CO2)2|1:Sr 10:C 18:H 4:O|0.0
  ⟨n!"Ba(Pent)+", 1401, n!"Aqueous|HKF|"⟩,  -- BaCH3(CH2)3CO2+|1:Ba 5:C 9:H 2:O|1.0
  ⟨n!"Ba(Pent)2(aq)", 1402, n!"Aqueous|HKF|"⟩,  -- Ba(CH3CH2CH2CH2CO2)2|1:Ba 10:C 18:H 4:O|0.0
  ⟨n!"Cu(Pent)+", 1403, n!"Aqueous|HKF|"⟩,  -- CuCH3(CH2)3CO2+|1:Cu 5:C 9:H 2:O|1.0
  ⟨n!"Cu(Pent)2(aq)", 1404, n!"Aqueous|HKF|"⟩,  -- Cu(CH3CH2CH2CH2CO2)2|1:Cu 10:C 18:H 4:O|0.0
  ⟨n!"Na(Pent)(aq)", 1405, n!"Aqueous|HKF|"⟩,  -- NaCH3(CH2)3CO2|1:Na 5:C 9:H 2:O|0.0
  ⟨n!"Na(Pent)2-", 1406, n!"Aqueous|HKF|"⟩,  -- Na(CH3CH2CH2CH2CO2)2-|1:Na 10:C 18:H 4:O|-1.0
  ⟨n!"K(Pent)(aq)", 1407, n!"Aqueous|HKF|"⟩,  -- KCH3(CH2)3CO2|1:K 5:C 9:H 2:O|0.0
  ⟨n!"K(Pent)2-", 1408, n!"Aqueous|HKF|"⟩,  -- K(CH3CH2CH2CH2CO2)2-|1:K 10:C 18:H 4:O|-1.0
  ⟨n!"La(Pent)+2", 1409, n!"Aqueous|HKF|"⟩,  -- LaCH3(CH2)3CO2+2|1:La 5:C 9:H 2:O|2.0
  ⟨n!"La(Pent)2+", 1410, n!"Aqueous|HKF|"⟩,  -- La(CH3CH2CH2CH2CO2)2+|1:La 10:C 18:H 4:O|1.0
  ⟨n!"Eu(Pent)+2", 1411, n!"Aqueous|HKF|"⟩,  -- EuCH3(CH2)3CO2+2|1:Eu 5:C 9:H 2:O|2.0
  ⟨n!"Eu(Pent)2+", 1412, n!"Aqueous|HKF|"⟩,  -- Eu(CH3CH2CH2CH2CO2)2+|1:Eu 10:C 18:H 4:O|1.0
  ⟨n!"U(Pent)+2", 1413, n!"Aqueous|HKF|"⟩,  -- UCH3(CH2)3CO2+2|1:U 5:C 9:H 2:O|2.0
  ⟨n!"Eu(Pent)+", 1414, n!"Aqueous|HKF|"⟩,  -- EuCH3(CH2)3CO2+|1:Eu 5:C 9:H 2:O|1.0
  ⟨n!"Gd(Pent)+2", 1415, n!"Aqueous|HKF|"⟩,  -- GdCH3(CH2)3CO2+2|1:Gd 5:C 9:H 2:O|2.0
  ⟨n!"Gd(Pent)2+", 1416, n!"Aqueous|HKF|"⟩,  -- Gd(CH3CH2CH2CH2CO2)2+|1:Gd 10:C 18:H 4:O|1.0
  ⟨n!"Yb(Pent)+2", 1417, n!"Aqueous|HKF|"⟩,  -- YbCH3(CH2)3CO2+2|1:Yb 5:C 9:H 2:O|2.0
  ⟨n!"Yb(Pent)2+", 1418, n!"Aqueous|HKF|"⟩,  -- Yb(CH3CH2CH2CH2CO2)2+|1:Yb 10:C 18:H 4:O|1.0
  ⟨n!"Mg(Pent)+", 1419, n!"Aqueous|HKF|"⟩,  -- MgCH3(CH2)3CO2+|1:Mg 5:C 9:H 2:O|1.0
  ⟨n!"Mg(Pent)2(aq)", 1420, n!"Aqueous|HKF|"⟩,  -- Mg(CH3CH2CH2CH2CO2)2|1:Mg 10:C 18:H 4:O|0.0
  ⟨n!"Pb(Pent)+", 1421, n!"Aqueous|HKF|"⟩,  -- PbCH3(CH2)3CO2+|1:Pb 5:C 9:H 2:O|1.0
  ⟨n!"Pb(Pent)2(aq)", 1422, n!"Aqueous|HKF|"⟩,  -- Pb(CH3CH2CH2CH2CO2)2|1:Pb 10:C 18:H 4:O|0.0
  ⟨n!"Co(Pent)+", 1423, n!"Aqueous|HKF|"⟩,  -- CoCH3(CH2)3CO2+|1:Co 5:C 9:H 2:O|1.0
  ⟨n!"Co(Pent)2(aq)", 1424, n!"Aqueous|HKF|"⟩,  -- Co(CH3CH2CH2CH2CO2)2|1:Co 10:C 18:H 4:O|0.0
  ⟨n!"Ni(Pent)+", 1425, n!"Aqueous|HKF|"⟩,  -- NiCH3(CH2)3CO2+|1:Ni 5:C 9:H 2:O|1.0
  ⟨n!"Ni(Pent)2(aq)", 1426, n!"Aqueous|HKF|"⟩,  -- Ni(CH3CH2CH2CH2CO2)2|1:Ni 10:C 18:H 4:O|0.0
  ⟨n!"Zn(Pent)+", 1427, n!"Aqueous|HKF|"⟩,  -- ZnCH3(CH2)3CO2+|1:Zn 5:C 9:H 2:O|1.0
  ⟨n!"Zn(Pent)2(aq)", 1428, n!"Aqueous|HKF|"⟩,  -- Zn(CH3CH2CH2CH2CO2)2|1:Zn 10:C 18:H 4:O|0.0
  ⟨n!"Cd(Pent)+", 1429, n!"Aqueous|HKF|"⟩,  -- CdCH3(CH2)3CO2+|1:Cd 5:C 9:H 2:O|1.0
  ⟨n!"Cd(Pent)2(aq)", 1430, n!"Aqueous|HKF|"⟩,  -- Cd(CH3CH2CH2CH2CO2)2|1:Cd 10:C 18:H 4:O|0.0
  ⟨n!"Fe(Pent)+", 1431, n!"Aqueous|HKF|"⟩,  -- FeCH3(CH2)3CO2+|1:Fe 5:C 9:H 2:O|1.0
  ⟨n!"Fe(Pent)2(aq)", 1432, n!"Aqueous|HKF|"⟩,  -- Fe(CH3CH2CH2CH2CO2)2|1:Fe 10:C 18:H 4:O|0.0
  ⟨n!"Mn(Pent)+", 1433, n!"Aqueous|HKF|"⟩,  -- MnCH3(CH2)3CO2+|1:Mn 5:C 9:H 2:O|1.0
  ⟨n!"Mn(Pent)2(aq)", 1434, n!"Aqueous|HKF|"⟩]  -- Mn(CH3CH2CH2CH2CO2)2|1:Mn 10:C 18:H 4:O|0.0

/-- `supcrt07.yaml:26919-28758`. -/
def part15 : List Row := [
  ⟨n!"NaSO4-", 1435, n!"Aqueous|HKF|"⟩,  -- NaSO4-|1:Na 1:S 4:O|-1.0
  ⟨n!"MgSO4(aq)", 1436, n!"Aqueous|HKF|"⟩,  -- MgSO4|1:Mg 1:S 4:O|0.0
  ⟨n!"HCl(aq)", 1437, n!"Aqueous|HKF|"⟩,  -- HCl|1:H 1:Cl|0.0
  ⟨n!"MgCO3(aq)", 1438, n!"Aqueous|HKF|"⟩,  -- MgCO3|1:Mg 1:C 3:O|0.0
  ⟨n!"CaCO3(aq)", 1439, n!"Aqueous|HKF|"⟩,  -- CaCO3|1:Ca 1:C 3:O|0.0
  ⟨n!"SrCO3(aq)", 1440, n!"Aqueous|HKF|"⟩,  -- SrCO3|1:Sr 1:C 3:O|0.0
  ⟨n!"BaCO3(aq)", 1441, n!"Aqueous|HKF|"⟩,  -- BaCO3|1:Ba 1:C 3:O|0.0
  ⟨n!"BeCl+", 1442, n!"Aqueous|HKF|"⟩,  -- BeCl+|1:Be 1:Cl|1.0
  ⟨n!"BeCl2(aq)", 1443, n!"Aqueous|HKF|"⟩,  -- BeCl2|1:Be 2:Cl|0.0
  ⟨n!"FeCl+2", 1444, n!"Aqueous|HKF|"⟩,  -- FeCl+2|1:Fe 1:Cl|2.0
  ⟨n!"CoCl+", 1445, n!"Aqueous|HKF|"⟩,  -- CoCl+|1:Co 1:Cl|1.0
  ⟨n!"CuCl(aq)", 1446, n!"Aqueous|HKF|"⟩,  -- CuCl|1:Cu 1:Cl|0.0
  ⟨n!"CuCl2-", 1447, n!"Aqueous|HKF|"⟩,  -- CuCl2-|1:Cu 2:Cl|-1.0
  ⟨n!"CuCl3-2", 1448, n!"Aqueous|HKF|"⟩,  -- CuCl3-2|1:Cu 3:Cl|-2.0
  ⟨n!"CuCl+", 1449, n!"Aqueous|HKF|"⟩,  -- CuCl+|1:Cu 1:Cl|1.0
  ⟨n!"CuCl2(aq)", 1450, n!"Aqueous|HKF|"⟩,  -- CuCl2|1:Cu 2:Cl|0.0
  ⟨n!"CuCl3-", 1451, n!"Aqueous|HKF|"⟩,  -- CuCl3-|1:Cu 3:Cl|-1.0
  ⟨n!"CuCl4-2", 1452, n!"Aqueous|HKF|"⟩,  -- CuCl4-2|1:Cu 4:Cl|-2.0
  ⟨n!"CdCl+", 1453, n!"Aqueous|HKF|"⟩,  -- CdCl+|1:Cd 1:Cl|1.0
  ⟨n!"CdCl2(aq)", 1454, n!"Aqueous|HKF|"⟩,  -- CdCl2|1:Cd 2:Cl|0.0
  ⟨n!"CdCl3-", 1455, n!"Aqueous|HKF|"⟩,  -- CdCl3-|1:Cd 3:Cl|-1.0
  ⟨n!"CdCl4-2", 1456, n!"Aqueous|HKF|"⟩,  -- CdCl4-2|1:Cd 4:Cl|-2.0
  ⟨n!"TlCl(aq)", 1457, n!"Aqueous|HKF|"⟩,  -- TlCl|1:Tl 1:Cl|0.0
  ⟨n!"TlCl+2", 1458, n!"Aqueous|HKF|"⟩,  -- TlCl+2|1:Tl 1:Cl|2.0
  ⟨n!"AuCl(aq)", 1459, n!"Aqueous|HKF|"⟩,  -- AuCl|1:Au 1:Cl|0.0
  ⟨n!"AuCl2-", 1460, n!"Aqueous|HKF|"⟩,  -- AuCl2-|1:Au 2:Cl|-1.0
  ⟨n!"AuCl3-2", 1461, n!"Aqueous|HKF|"⟩,  -- AuCl3-2|1:Au 3:Cl|-2.0
  ⟨n!"AuCl4-", 1462, n!"Aqueous|HKF|"⟩,  -- AuCl4-|1:Au 4:Cl|-1.0
  ⟨n!"HgCl+", 1463, n!"Aqueous|HKF|"⟩,  -- HgCl+|1:Hg 1:Cl|1.0
  ⟨n!"HgCl2(aq)", 1464, n!"Aqueous|HKF|"⟩,  -- HgCl2|1:Hg 2:Cl|0.0
  ⟨n!"HgCl3-", 1465, n!"Aqueous|HKF|"⟩,  -- HgCl3-|1:Hg 3:Cl|-1.0
  ⟨n!"HgCl4-2", 1466, n!"Aqueous|HKF|"⟩,  -- HgCl4-2|1:Hg 4:Cl|-2.0
  ⟨n!"InCl+2", 1467, n!"Aqueous|HKF|"⟩,  -- InCl+2|1:In 1:Cl|2.0
  ⟨n!"BeF+", 1468, n!"Aqueous|HKF|"⟩,  -- BeF+|1:Be 1:F|1.0
  ⟨n!"BeF2(aq)", 1469, n!"Aqueous|HKF|"⟩,  -- BeF2|1:Be 2:F|0.0
  ⟨n!"BeF3-", 1470, n!"Aqueous|HKF|"⟩,  -- BeF3-|1:Be 3:F|-1.0
  ⟨n!"BeF4-2", 1471, n!"Aqueous|HKF|"⟩,  -- BeF4-2|1:Be 4:F|-2.0
  ⟨n!"MnF+", 1472, n!"Aqueous|HKF|"⟩,  -- MnF+|1:Mn 1:F|1.0
  ⟨n!"FeF+", 1473, n!"Aqueous|HKF|"⟩,  -- FeF+|1:Fe 1:F|1.0
  ⟨n!"FeF+2", 1474, n!"Aqueous|HKF|"⟩,  -- FeF+2|1:Fe 1:F|2.0
  ⟨n!"CoF+", 1475, n!"Aqueous|HKF|"⟩,  -- CoF+|1:Co 1:F|1.0
  ⟨n!"NiF+", 1476, n!"Aqueous|HKF|"⟩,  -- NiF+|1:Ni 1:F|1.0
  ⟨n!"CuF+", 1477, n!"Aqueous|HKF|"⟩,  -- CuF+|1:Cu 1:F|1.0
  ⟨n!"ZnF+", 1478, n!"Aqueous|HKF|"⟩,  -- ZnF+|1:Zn 1:F|1.0
  ⟨n!"AgF(aq)", 1479, n!"Aqueous|HKF|"⟩,  -- AgF|1:Ag 1:F|0.0
  ⟨n!"CdF+", 1480, n!"Aqueous|HKF|"⟩,  -- CdF+|1:Cd 1:F|1.0
  ⟨n!"CdF2(aq)", 1481, n!"Aqueous|HKF|"⟩,  -- CdF2|1:Cd 2:F|0.0
  ⟨n!"BaF+", 1482, n!"Aqueous|HKF|"⟩,  -- BaF+|1:Ba 1:F|1.0
  ⟨n!"TlF(aq)", 1483, n!"Aqueous|HKF|"⟩,  -- TlF|1:Tl 1:F|0.0
  ⟨n!"HgF+", 1484, n!"Aqueous|HKF|"⟩,  -- HgF+|1:Hg 1:F|1.0
  ⟨n!"InF+2", 1485, n!"Aqueous|HKF|"⟩,  -- InF+2|1:In 1:F|2.0
  ⟨n!"PbF+", 1486, n!"Aqueous|HKF|"⟩,  -- PbF+|1:Pb 1:F|1.0
  ⟨n!"PbF2(aq)", 1487, n!"Aqueous|HKF|"⟩,  -- PbF2|1:Pb 2:F|0.0
  ⟨n!"Ag(HS)2-", 1488, n!"Aqueous|HKF|"⟩,  -- Ag(HS)2-|1:Ag 2:H 2:S|-1.0
  ⟨n!"Au(HS)2-", 1489, n!"Aqueous|HKF|"⟩,  -- Au(HS)2-|1:Au 2:H 2:S|-1.0
  ⟨n!"Pb(HS)2(aq)", 1490, n!"Aqueous|HKF|"⟩,  -- Pb(HS)2|1:Pb 2:H 2:S|0.0
  ⟨n!"Pb(HS)3-", 1491, n!"Aqueous|HKF|"⟩,  -- Pb(HS)3-|1:Pb 3:H 3:S|-1.0
  ⟨n!"Mg(HSiO3)+", 1492, n!"Aqueous|HKF|"⟩,  -- Mg(HSiO3)+|1:Mg 1:H 1:Si 3:O|1.0
  ⟨n!"Ca(HSiO3)+", 1493, n!"Aqueous|HKF|"⟩,  -- Ca(HSiO3)+|1:Ca 1:H 1:Si 3:O|1.0
  ⟨n!"PCE(aq)", 1558, n!"Aqueous|HKF|"⟩,  -- C2Cl4|2:C 4:Cl|0.0
  ⟨n!"TCE(aq)", 1559, n!"Aqueous|HKF|"⟩,  -- C2HCl3|2:C 1:H 3:Cl|0.0
  ⟨n!"1,1-DCE(aq)", 1560, n!"Aqueous|HKF|"⟩,  -- C2H2Cl2|2:C 2:H 2:Cl|0.0
  ⟨n!"1,2-DCE,cis(aq)", 1560, n!"Aqueous|HKF|"⟩,  -- C2H2Cl2|2:C 2:H 2:Cl|0.0
  ⟨n!"1,2-DCE,trans(aq)", 1560, n!"Aqueous|HKF|"⟩,  -- C2H2Cl2|2:C 2:H 2:Cl|0.0
  ⟨n!"VC(aq)", 1561, n!"Aqueous|HKF|"⟩,  -- C2H3Cl|2:C 3:H 1:Cl|0.0
  ⟨n!"Pb(Ox)(aq)", 1562, n!"Aqueous|HKF|"⟩,  -- PbC2O4|1:Pb 2:C 4:O|0.0
  ⟨n!"Mn(Ox)(aq)", 1563, n!"Aqueous|HKF|"⟩,  -- MnC2O4|1:Mn 2:C 4:O|0.0
  ⟨n!"Co(Ox)(aq)", 1564, n!"Aqueous|HKF|"⟩,  -- CoC2O4|1:Co 2:C 4:O|0.0
  ⟨n!"Ni(Ox)(aq)", 1565, n!"Aqueous|HKF|"⟩,  -- NiC2O4|1:Ni 2:C 4:O|0.0
  ⟨n!"Fe(Ox)+", 1566, n!"Aqueous|HKF|"⟩,  -- FeC2O4+|1:Fe 2:C 4:O|1.0
  ⟨n!"Cu(Ox)(aq)", 1567, n!"Aqueous|HKF|"⟩,  -- CuC2O4|1:Cu 2:C 4:O|0.0
  ⟨n!"Na(Ox)-", 1568, n!"Aqueous|HKF|"⟩,  -- NaC2O4-|1:Na 2:C 4:O|-1.0
  ⟨n!"K(Ox)-", 1569, n!"Aqueous|HKF|"⟩,  -- KC2O4-|1:K 2:C 4:O|-1.0
  ⟨n!"NH4(Ox)-", 1570, n!"Aqueous|HKF|"⟩,  -- NH4C2O4-|1:N 4:H 2:C 4:O|-1.0
  ⟨n!"Mg(Ox)(aq)", 1571, n!"Aqueous|HKF|"⟩,  -- MgC2O4|1:Mg 2:C 4:O|0.0
  ⟨n!"Ca(Ox)(aq)", 1572, n!"Aqueous|HKF|"⟩,  -- CaC2O4|1:Ca 2:C 4:O|0.0
  ⟨n!"Zn(Ox)(aq)", 1573, n!"Aqueous|HKF|"⟩,  -- ZnC2O4|1:Zn 2:C 4:O|0.0
  ⟨n!"Cd(Ox)(aq)", 1574, n!"Aqueous|HKF|"⟩,  -- CdC2O4|1:Cd 2:C 4:O|0.0
  ⟨n!"Al(Ox)+", 1575, n!"Aqueous|HKF|"⟩,  -- AlC2O4+|1:Al 2:C 4:O|1.0
  ⟨n!"Yb(Ox)+", 1576, n!"Aqueous|HKF|"⟩,  -- YbC2O4+|1:Yb 2:C 4:O|1.0
  ⟨n!"Ce(Ox)+", 1577, n!"Aqueous|HKF|"⟩,  -- CeC2O4+|1:Ce 2:C 4:O|1.0
  ⟨n!"Nd(Ox)+", 1578, n!"Aqueous|HKF|"⟩,  -- NdC2O4+|1:Nd 2:C 4:O|1.0
  ⟨n!"Eu(Ox)+", 1579, n!"Aqueous|HKF|"⟩,  -- EuC2O4+|1:Eu 2:C 4:O|1.0
  ⟨n!"Gd(Ox)+", 1580, n!"Aqueous|HKF|"⟩,  -- GdC2O4+|1:Gd 2:C 4:O|1.0
  ⟨n!"Ru(Ox)+", 1581, n!"Aqueous|HKF|"⟩,  -- RuC2O4+|1:Ru 2:C 4:O|1.0
  ⟨n!"Pa(Ox)+2", 1582, n!"Aqueous|HKF|"⟩,  -- PaC2O4+2|1:Pa 2:C 4:O|2.0
  ⟨n!"Th(Ox)+2", 1583, n!"Aqueous|HKF|"⟩,  -- ThC2O4+2|1:Th 2:C 4:O|2.0
  ⟨n!"U(Ox)+2", 1584, n!"Aqueous|HKF|"⟩,  -- UC2O4+2|1:U 2:C 4:O|2.0
  ⟨n!"Np(Ox)+2", 1585, n!"Aqueous|HKF|"⟩,  -- NpC2O4+2|1:Np 2:C 4:O|2.0
  ⟨n!"PuO2(Ox)(aq)", 1586, n!"Aqueous|HKF|"⟩,  -- PuO6C2|1:Pu 6:O 2:C|0.0
  ⟨n!"UO2(Ox)(aq)", 1587, n!"Aqueous|HKF|"⟩,  -- UO6C2|1:U 6:O 2:C|0.0
  ⟨n!"Am(Ox)+", 1588, n!"Aqueous|HKF|"⟩,  -- AmC2O4+|1:Am 2:C 4:O|1.0
  ⟨n!"Cm(Ox)+", 1589, n!"Aqueous|HKF|"⟩,  -- CmC2O4+|1:Cm 2:C 4:O|1.0
  ⟨n!"Y(Ox)+", 1590, n!"Aqueous|HKF|"⟩,  -- YC2O4+|1:Y 2:C 4:O|1.0
  ⟨n!"Be(Ox)(aq)", 1591, n!"Aqueous|HKF|"⟩,  -- BeC2O4|1:Be 2:C 4:O|0.0
  ⟨n!"Hg(Ox)(aq)", 1592, n!"Aqueous|HKF|"⟩,  -- HgC2O4|1:Hg 2:C 4:O|0.0
  ⟨n!"Cr(Ox)(aq)", 1593, n!"Aqueous|HKF|"⟩,  -- CrC2O4|1:Cr 2:C 4:O|0.0
  ⟨n!"Fe(Ox)(aq)", 1594, n!"Aqueous|HKF|"⟩,  -- FeC2O4|1:Fe 2:C 4:O|0.0
  ⟨n!"La(Ox)+", 1595, n!"Aqueous|HKF|"⟩,  -- LaC2O4+|1:La 2:C 4:O|1.0
  ⟨n!"Tb(Ox)+", 1596, n!"Aqueous|HKF|"⟩]  -- TbC2O4+|1:Tb 2:C 4:O|1.0

/-- `supcrt07.yaml:28759-30658`. -/
def part16 : List Row := [
  ⟨n!"Er(Ox)+", 1597, n!"Aqueous|HKF|"⟩,  -- ErC2O4+|1:Er 2:C 4:O|1.0
  ⟨n!"Lu(Ox)+", 1598, n!"Aqueous|HKF|"⟩,  -- LuC2O4+|1:Lu 2:C 4:O|1.0
  ⟨n!"Cr(Ox)+", 1599, n!"Aqueous|HKF|"⟩,  -- CrC2O4+|1:Cr 2:C 4:O|1.0
  ⟨n!"Ga(Ox)+", 1600, n!"Aqueous|HKF|"⟩,  -- GaC2O4+|1:Ga 2:C 4:O|1.0
  ⟨n!"Sc(Ox)+", 1601, n!"Aqueous|HKF|"⟩,  -- ScC2O4+|1:Sc 2:C 4:O|1.0
  ⟨n!"In(Ox)+", 1602, n!"Aqueous|HKF|"⟩,  -- InC2O4+|1:In 2:C 4:O|1.0
  ⟨n!"Pu(Ox)+2", 1603, n!"Aqueous|HKF|"⟩,  -- PuC2O4+2|1:Pu 2:C 4:O|2.0
  ⟨n!"NpO2(Ox)+2", 1604, n!"Aqueous|HKF|"⟩,  -- NpC2O6+2|1:Np 2:C 6:O|2.0
  ⟨n!"Sm(Ox)+", 1605, n!"Aqueous|HKF|"⟩,  -- SmC2O4+|1:Sm 2:C 4:O|1.0
  ⟨n!"Li(Ox)-", 1606, n!"Aqueous|HKF|"⟩,  -- LiC2O4-|1:Li 2:C 4:O|-1.0
  ⟨n!"Sr(Ox)(aq)", 1607, n!"Aqueous|HKF|"⟩,  -- SrC2O4|1:Sr 2:C 4:O|0.0
  ⟨n!"Ba(Ox)(aq)", 1608, n!"Aqueous|HKF|"⟩,  -- BaC2O4|1:Ba 2:C 4:O|0.0
  ⟨n!"Li(Mal)-", 1609, n!"Aqueous|HKF|"⟩,  -- LiC3H4O4-|1:Li 3:C 4:H 4:O|-1.0
  ⟨n!"Mg(Mal)(aq)", 1610, n!"Aqueous|HKF|"⟩,  -- MgC3H4O4|1:Mg 3:C 4:H 4:O|0.0
  ⟨n!"Zn(Mal)(aq)", 1611, n!"Aqueous|HKF|"⟩,  -- ZnC3H4O4|1:Zn 3:C 4:H 4:O|0.0
  ⟨n!"Cd(Mal)(aq)", 1612, n!"Aqueous|HKF|"⟩,  -- CdC3H4O4|1:Cd 3:C 4:H 4:O|0.0
  ⟨n!"Al(Mal)+", 1613, n!"Aqueous|HKF|"⟩,  -- AlC3H4O4+|1:Al 3:C 4:H 4:O|1.0
  ⟨n!"Pb(Mal)(aq)", 1614, n!"Aqueous|HKF|"⟩,  -- PbC3H4O4|1:Pb 3:C 4:H 4:O|0.0
  ⟨n!"Na(Mal)-", 1615, n!"Aqueous|HKF|"⟩,  -- NaC3H4O4-|1:Na 3:C 4:H 4:O|-1.0
  ⟨n!"K(Mal)-", 1616, n!"Aqueous|HKF|"⟩,  -- KC3H4O4-|1:K 3:C 4:H 4:O|-1.0
  ⟨n!"La(Mal)+", 1617, n!"Aqueous|HKF|"⟩,  -- LaC3H4O4+|1:La 3:C 4:H 4:O|1.0
  ⟨n!"Gd(Mal)+", 1618, n!"Aqueous|HKF|"⟩,  -- GdC3H4O4+|1:Gd 3:C 4:H 4:O|1.0
  ⟨n!"Lu(Mal)+", 1619, n!"Aqueous|HKF|"⟩,  -- LuC3H4O4+|1:Lu 3:C 4:H 4:O|1.0
  ⟨n!"Yb(Mal)+", 1620, n!"Aqueous|HKF|"⟩,  -- YbC3H4O4+|1:Yb 3:C 4:H 4:O|1.0
  ⟨n!"Th(Mal)+2", 1621, n!"Aqueous|HKF|"⟩,  -- ThC3H4O4+2|1:Th 3:C 4:H 4:O|2.0
  ⟨n!"Cu(Mal)(aq)", 1622, n!"Aqueous|HKF|"⟩,  -- CuC3H4O4|1:Cu 3:C 4:H 4:O|0.0
  ⟨n!"UO2(Mal)(aq)", 1623, n!"Aqueous|HKF|"⟩,  -- UC3H4O6|1:U 3:C 4:H 6:O|0.0
  ⟨n!"Ce(Mal)+", 1624, n!"Aqueous|HKF|"⟩,  -- CeC3H4O4+|1:Ce 3:C 4:H 4:O|1.0
  ⟨n!"Nd(Mal)+", 1625, n!"Aqueous|HKF|"⟩,  -- NdC3H4O4+|1:Nd 3:C 4:H 4:O|1.0
  ⟨n!"Sm(Mal)+", 1626, n!"Aqueous|HKF|"⟩,  -- SmC3H4O4+|1:Sm 3:C 4:H 4:O|1.0
  ⟨n!"Pr(Mal)+", 1627, n!"Aqueous|HKF|"⟩,  -- PrC3H4O4+|1:Pr 3:C 4:H 4:O|1.0
  ⟨n!"Eu(Mal)+", 1628, n!"Aqueous|HKF|"⟩,  -- EuC3H4O4+|1:Eu 3:C 4:H 4:O|1.0
  ⟨n!"Tb(Mal)+", 1629, n!"Aqueous|HKF|"⟩,  -- TbC3H4O4+|1:Tb 3:C 4:H 4:O|1.0
  ⟨n!"Dy(Mal)+", 1630, n!"Aqueous|HKF|"⟩,  -- DyC3H4O4+|1:Dy 3:C 4:H 4:O|1.0
  ⟨n!"Tm(Mal)+", 1631, n!"Aqueous|HKF|"⟩,  -- TmC3H4O4+|1:Tm 3:C 4:H 4:O|1.0
  ⟨n!"Ho(Mal)+", 1632, n!"Aqueous|HKF|"⟩,  -- HoC3H4O4+|1:Ho 3:C 4:H 4:O|1.0
  ⟨n!"Er(Mal)+", 1633, n!"Aqueous|HKF|"⟩,  -- ErC3H4O4+|1:Er 3:C 4:H 4:O|1.0
  ⟨n!"Sc(Mal)+", 1634, n!"Aqueous|HKF|"⟩,  -- ScC3H4O4+|1:Sc 3:C 4:H 4:O|1.0
  ⟨n!"Fe(Mal)+", 1635, n!"Aqueous|HKF|"⟩,  -- FeC3H4O4+|1:Fe 3:C 4:H 4:O|1.0
  ⟨n!"Cs(Mal)-", 1636, n!"Aqueous|HKF|"⟩,  -- CsC3H4O4-|1:Cs 3:C 4:H 4:O|-1.0
  ⟨n!"NH4(Mal)-", 1637, n!"Aqueous|HKF|"⟩,  -- NH4C3H4O4-|1:N 4:H 3:C 4:H 4:O|-1.0
  ⟨n!"Sr(Mal)(aq)", 1638, n!"Aqueous|HKF|"⟩,  -- SrC3H4O4|1:Sr 3:C 4:H 4:O|0.0
  ⟨n!"Cr(Mal)(aq)", 1639, n!"Aqueous|HKF|"⟩,  -- CrC3H4O4|1:Cr 3:C 4:H 4:O|0.0
  ⟨n!"Be(Mal)(aq)", 1640, n!"Aqueous|HKF|"⟩,  -- BeC3H4O4|1:Be 3:C 4:H 4:O|0.0
  ⟨n!"Fe(Mal)(aq)", 1641, n!"Aqueous|HKF|"⟩,  -- FeC3H4O4|1:Fe 3:C 4:H 4:O|0.0
  ⟨n!"In(Mal)+", 1642, n!"Aqueous|HKF|"⟩,  -- InC3H4O4+|1:In 3:C 4:H 4:O|1.0
  ⟨n!"Y(Mal)+", 1643, n!"Aqueous|HKF|"⟩,  -- YC3H4O4+|1:Y 3:C 4:H 4:O|1.0
  ⟨n!"Ca(Mal)(aq)", 1644, n!"Aqueous|HKF|"⟩,  -- CaC3H4O4|1:Ca 3:C 4:H 4:O|0.0
  ⟨n!"Ba(Mal)(aq)", 1645, n!"Aqueous|HKF|"⟩,  -- BaC3H4O4|1:Ba 3:C 4:H 4:O|0.0
  ⟨n!"Mn(Mal)(aq)", 1646, n!"Aqueous|HKF|"⟩,  -- MnC3H4O4|1:Mn 3:C 4:H 4:O|0.0
  ⟨n!"Co(Mal)(aq)", 1647, n!"Aqueous|HKF|"⟩,  -- CoC3H4O4|1:Co 3:C 4:H 4:O|0.0
  ⟨n!"Ni(Mal)(aq)", 1648, n!"Aqueous|HKF|"⟩,  -- NiC3H4O4|1:Ni 3:C 4:H 4:O|0.0
  ⟨n!"Mn(Succ)(aq)", 1649, n!"Aqueous|HKF|"⟩,  -- MnC4H4O4|1:Mn 4:C 4:H 4:O|0.0
  ⟨n!"Co(Succ)(aq)", 1650, n!"Aqueous|HKF|"⟩,  -- CoC4H4O4|1:Co 4:C 4:H 4:O|0.0
  ⟨n!"Ni(Succ)(aq)", 1651, n!"Aqueous|HKF|"⟩,  -- NiC4H4O4|1:Ni 4:C 4:H 4:O|0.0
  ⟨n!"Pb(Succ)(aq)", 1652, n!"Aqueous|HKF|"⟩,  -- PbC4H4O4|1:Pb 4:C 4:H 4:O|0.0
  ⟨n!"Na(Succ)-", 1653, n!"Aqueous|HKF|"⟩,  -- NaC4H4O4-|1:Na 4:C 4:H 4:O|-1.0
  ⟨n!"K(Succ)-", 1654, n!"Aqueous|HKF|"⟩,  -- KC4H4O4-|1:K 4:C 4:H 4:O|-1.0
  ⟨n!"Ca(Succ)(aq)", 1655, n!"Aqueous|HKF|"⟩,  -- CaC4H4O4|1:Ca 4:C 4:H 4:O|0.0
  ⟨n!"Cu(Succ)(aq)", 1656, n!"Aqueous|HKF|"⟩,  -- CuC4H4O4|1:Cu 4:C 4:H 4:O|0.0
  ⟨n!"Zn(Succ)(aq)", 1657, n!"Aqueous|HKF|"⟩,  -- ZnC4H4O4|1:Zn 4:C 4:H 4:O|0.0
  ⟨n!"Cd(Succ)(aq)", 1658, n!"Aqueous|HKF|"⟩,  -- CdC4H4O4|1:Cd 4:C 4:H 4:O|0.0
  ⟨n!"UO2(Succ)(aq)", 1659, n!"Aqueous|HKF|"⟩,  -- UO2C4H4O4|1:U 2:O 4:C 4:H 4:O|0.0
  ⟨n!"Th(Succ)+2", 1660, n!"Aqueous|HKF|"⟩,  -- ThC4H4O4+2|1:Th 4:C 4:H 4:O|2.0
  ⟨n!"Mg(Succ)(aq)", 1661, n!"Aqueous|HKF|"⟩,  -- MgC4H4O4|1:Mg 4:C 4:H 4:O|0.0
  ⟨n!"Ba(Succ)(aq)", 1662, n!"Aqueous|HKF|"⟩,  -- BaC4H4O4|1:Ba 4:C 4:H 4:O|0.0
  ⟨n!"La(Succ)+", 1663, n!"Aqueous|HKF|"⟩,  -- LaC4H4O4+|1:La 4:C 4:H 4:O|1.0
  ⟨n!"NH4(Succ)-", 1664, n!"Aqueous|HKF|"⟩,  -- NH4C4H4O4-|1:N 4:H 4:C 4:H 4:O|-1.0
  ⟨n!"Be(Succ)(aq)", 1665, n!"Aqueous|HKF|"⟩,  -- BeC4H4O4|1:Be 4:C 4:H 4:O|0.0
  ⟨n!"Fe(Succ)+", 1666, n!"Aqueous|HKF|"⟩,  -- FeC4H4O4+|1:Fe 4:C 4:H 4:O|1.0
  ⟨n!"Sc(Succ)+", 1667, n!"Aqueous|HKF|"⟩,  -- ScC4H4O4+|1:Sc 4:C 4:H 4:O|1.0
  ⟨n!"PuO2(Succ)(aq)", 1668, n!"Aqueous|HKF|"⟩,  -- PuO6C4H4|1:Pu 6:O 4:C 4:H|0.0
  ⟨n!"NpO2(Succ)-", 1669, n!"Aqueous|HKF|"⟩,  -- NpO6C4H4-|1:Np 6:O 4:C 4:H|-1.0
  ⟨n!"Sm(Succ)+", 1670, n!"Aqueous|HKF|"⟩,  -- SmC4H4O4+|1:Sm 4:C 4:H 4:O|1.0
  ⟨n!"Er(Succ)+", 1671, n!"Aqueous|HKF|"⟩,  -- ErC4H4O4+|1:Er 4:C 4:H 4:O|1.0
  ⟨n!"U(Succ)+2", 1672, n!"Aqueous|HKF|"⟩,  -- UC4H4O4+2|1:U 4:C 4:H 4:O|2.0
  ⟨n!"Fe(Succ)(aq)", 1673, n!"Aqueous|HKF|"⟩,  -- FeC4H4O4|1:Fe 4:C 4:H 4:O|0.0
  ⟨n!"Sr(Succ)(aq)", 1674, n!"Aqueous|HKF|"⟩,  -- SrC4H4O4|1:Sr 4:C 4:H 4:O|0.0
  ⟨n!"Li(Succ)-", 1675, n!"Aqueous|HKF|"⟩,  -- LiC4H4O4-|1:Li 4:C 4:H 4:O|-1.0
  ⟨n!"Cr(Succ)(aq)", 1676, n!"Aqueous|HKF|"⟩,  -- CrC4H4O4|1:Cr 4:C 4:H 4:O|0.0
  ⟨n!"Cu(Glut)(aq)", 1677, n!"Aqueous|HKF|"⟩,  -- CuC5H6O4|1:Cu 5:C 6:H 4:O|0.0
  ⟨n!"Zn(Glut)(aq)", 1678, n!"Aqueous|HKF|"⟩,  -- ZnC5H6O4|1:Zn 5:C 6:H 4:O|0.0
  ⟨n!"Cd(Glut)(aq)", 1679, n!"Aqueous|HKF|"⟩,  -- CdC5H6O4|1:Cd 5:C 6:H 4:O|0.0
  ⟨n!"Ni(Glut)(aq)", 1680, n!"Aqueous|HKF|"⟩,  -- NiC5H6O4|1:Ni 5:C 6:H 4:O|0.0
  ⟨n!"Ba(Glut)(aq)", 1681, n!"Aqueous|HKF|"⟩,  -- BaC5H6O4|1:Ba 5:C 6:H 4:O|0.0
  ⟨n!"Mn(Glut)(aq)", 1682, n!"Aqueous|HKF|"⟩,  -- MnC5H6O4|1:Mn 5:C 6:H 4:O|0.0
  ⟨n!"Co(Glut)(aq)", 1683, n!"Aqueous|HKF|"⟩,  -- CoC5H6O4|1:Co 5:C 6:H 4:O|0.0
  ⟨n!"La(Glut)+", 1684, n!"Aqueous|HKF|"⟩,  -- LaC5H6O4+|1:La 5:C 6:H 4:O|1.0
  ⟨n!"Y(Glut)+", 1685, n!"Aqueous|HKF|"⟩,  -- YC5H6O4+|1:Y 5:C 6:H 4:O|1.0
  ⟨n!"Th(Glut)+2", 1686, n!"Aqueous|HKF|"⟩,  -- ThC5H6O4+2|1:Th 5:C 6:H 4:O|2.0
  ⟨n!"Ca(Glut)(aq)", 1687, n!"Aqueous|HKF|"⟩,  -- CaC5H6O4|1:Ca 5:C 6:H 4:O|0.0
  ⟨n!"Pb(Glut)(aq)", 1688, n!"Aqueous|HKF|"⟩,  -- PbC5H6O4|1:Pb 5:C 6:H 4:O|0.0
  ⟨n!"Fe(Glut)+", 1689, n!"Aqueous|HKF|"⟩,  -- FeC5H6O4+|1:Fe 5:C 6:H 4:O|1.0
  ⟨n!"Sm(Glut)+", 1690, n!"Aqueous|HKF|"⟩,  -- SmC5H6O4+|1:Sm 5:C 6:H 4:O|1.0
  ⟨n!"Sc(Glut)+", 1691, n!"Aqueous|HKF|"⟩,  -- ScC5H6O4+|1:Sc 5:C 6:H 4:O|1.0
  ⟨n!"UO2(Glut)(aq)", 1692, n!"Aqueous|HKF|"⟩,  -- UO2C5H6O4|1:U 2:O 5:C 6:H 4:O|0.0
  ⟨n!"NpO2(Glut)(aq)", 1693, n!"Aqueous|HKF|"⟩,  -- NpO2C5H6O4|1:Np 2:O 5:C 6:H 4:O|0.0
  ⟨n!"Mg(Glut)(aq)", 1694, n!"Aqueous|HKF|"⟩,  -- MgC5H6O4|1:Mg 5:C 6:H 4:O|0.0
  ⟨n!"Sr(Glut)(aq)", 1695, n!"Aqueous|HKF|"⟩,  -- SrC5H6O4|1:Sr 5:C 6:H 4:O|0.0
  ⟨n!"Er(Glut)+", 1696, n!"Aqueous|HKF|"⟩]  -- ErC5H6O4+|1:Er 5:C 6:H 4:O|1.0

/-- `supcrt07.yaml:30659-32558`. -/
def part17 : List Row := [
  ⟨n!"Na(Glut)-", 1697, n!"Aqueous|HKF|"⟩,  -- NaC5H6O4-|1:Na 5:C 6:H 4:O|-1.0
  ⟨n!"K(Glut)-", 1698, n!"Aqueous|HKF|"⟩,  -- KC5H6O4-|1:K 5:C 6:H 4:O|-1.0
  ⟨n!"Li(Glut)-", 1699, n!"Aqueous|HKF|"⟩,  -- LiC5H6O4-|1:Li 5:C 6:H 4:O|-1.0
  ⟨n!"Cr(Glut)(aq)", 1700, n!"Aqueous|HKF|"⟩,  -- CrC5H6O4|1:Cr 5:C 6:H 4:O|0.0
  ⟨n!"Fe(Glut)(aq)", 1701, n!"Aqueous|HKF|"⟩,  -- FeC5H6O4|1:Fe 5:C 6:H 4:O|0.0
  ⟨n!"Ca(Adip)(aq)", 1702, n!"Aqueous|HKF|"⟩,  -- CaC6H8O4|1:Ca 6:C 8:H 4:O|0.0
  ⟨n!"Ba(Adip)(aq)", 1703, n!"Aqueous|HKF|"⟩,  -- BaC6H8O4|1:Ba 6:C 8:H 4:O|0.0
  ⟨n!"Co(Adip)(aq)", 1704, n!"Aqueous|HKF|"⟩,  -- CoC6H8O4|1:Co 6:C 8:H 4:O|0.0
  ⟨n!"Ni(Adip)(aq)", 1705, n!"Aqueous|HKF|"⟩,  -- NiC6H8O4|1:Ni 6:C 8:H 4:O|0.0
  ⟨n!"Cu(Adip)(aq)", 1706, n!"Aqueous|HKF|"⟩,  -- CuC6H8O4|1:Cu 6:C 8:H 4:O|0.0
  ⟨n!"Zn(Adip)(aq)", 1707, n!"Aqueous|HKF|"⟩,  -- ZnC6H8O4|1:Zn 6:C 8:H 4:O|0.0
  ⟨n!"Cd(Adip)(aq)", 1708, n!"Aqueous|HKF|"⟩,  -- CdC6H8O4|1:Cd 6:C 8:H 4:O|0.0
  ⟨n!"La(Adip)+", 1709, n!"Aqueous|HKF|"⟩,  -- LaC6H8O4+|1:La 6:C 8:H 4:O|1.0
  ⟨n!"Pb(Adip)(aq)", 1710, n!"Aqueous|HKF|"⟩,  -- PbC6H8O4|1:Pb 6:C 8:H 4:O|0.0
  ⟨n!"Sc(Adip)+", 1711, n!"Aqueous|HKF|"⟩,  -- ScC6H8O4+|1:Sc 6:C 8:H 4:O|1.0
  ⟨n!"UO2(Adip)(aq)", 1712, n!"Aqueous|HKF|"⟩,  -- UO2C6H8O4|1:U 2:O 6:C 8:H 4:O|0.0
  ⟨n!"Th(Adip)+2", 1713, n!"Aqueous|HKF|"⟩,  -- ThC6H8O4+2|1:Th 6:C 8:H 4:O|2.0
  ⟨n!"U(Adip)+2", 1714, n!"Aqueous|HKF|"⟩,  -- UC6H8O4+2|1:U 6:C 8:H 4:O|2.0
  ⟨n!"Na(Adip)-", 1715, n!"Aqueous|HKF|"⟩,  -- NaC6H8O4-|1:Na 6:C 8:H 4:O|-1.0
  ⟨n!"K(Adip)-", 1716, n!"Aqueous|HKF|"⟩,  -- KC6H8O4-|1:K 6:C 8:H 4:O|-1.0
  ⟨n!"Li(Adip)-", 1717, n!"Aqueous|HKF|"⟩,  -- LiC6H8O4-|1:Li 6:C 8:H 4:O|-1.0
  ⟨n!"Mg(Adip)(aq)", 1718, n!"Aqueous|HKF|"⟩,  -- MgC6H8O4|1:Mg 6:C 8:H 4:O|0.0
  ⟨n!"Fe(Adip)(aq)", 1719, n!"Aqueous|HKF|"⟩,  -- FeC6H8O4|1:Fe 6:C 8:H 4:O|0.0
  ⟨n!"Mn(Adip)(aq)", 1720, n!"Aqueous|HKF|"⟩,  -- MnC6H8O4|1:Mn 6:C 8:H 4:O|0.0
  ⟨n!"Sr(Adip)(aq)", 1721, n!"Aqueous|HKF|"⟩,  -- SrC6H8O4|1:Sr 6:C 8:H 4:O|0.0
  ⟨n!"Cr(Adip)(aq)", 1722, n!"Aqueous|HKF|"⟩,  -- CrC6H8O4|1:Cr 6:C 8:H 4:O|0.0
  ⟨n!"UO2(Pime)(aq)", 1723, n!"Aqueous|HKF|"⟩,  -- UC6H10O6|1:U 6:C 10:H 6:O|0.0
  ⟨n!"Adenine(aq)", 1724, n!"Aqueous|HKF|"⟩,  -- C5H5N5|5:C 5:H 5:N|0.0
  ⟨n!"Guanine(aq)", 1725, n!"Aqueous|HKF|"⟩,  -- C5H5N5O|5:C 5:H 5:N 1:O|0.0
  ⟨n!"Cytosine(aq)", 1726, n!"Aqueous|HKF|"⟩,  -- C4H5N3O|4:C 5:H 3:N 1:O|0.0
  ⟨n!"Thymine(aq)", 1727, n!"Aqueous|HKF|"⟩,  -- C5H6N2O2|5:C 6:H 2:N 2:O|0.0
  ⟨n!"Uracil(aq)", 1728, n!"Aqueous|HKF|"⟩,  -- C4H4N2O2|4:C 4:H 2:N 2:O|0.0
  ⟨n!"Ribose(aq)", 1729, n!"Aqueous|HKF|"⟩,  -- C5H10O5|5:C 10:H 5:O|0.0
  ⟨n!"Deoxyribose(aq)", 1730, n!"Aqueous|HKF|"⟩,  -- C5H10O4|5:C 10:H 4:O|0.0
  ⟨n!"Adenosine(aq)", 1731, n!"Aqueous|HKF|"⟩,  -- C10H13N5O4|10:C 13:H 5:N 4:O|0.0
  ⟨n!"Cytidine(aq)", 1732, n!"Aqueous|HKF|"⟩,  -- C9H13N3O5|9:C 13:H 3:N 5:O|0.0
  ⟨n!"Guanosine(aq)", 1733, n!"Aqueous|HKF|"⟩,  -- C10H13N5O5|10:C 13:H 5:N 5:O|0.0
  ⟨n!"Thymidine(aq)", 1734, n!"Aqueous|HKF|"⟩,  -- C10H14N2O6|10:C 14:H 2:N 6:O|0.0
  ⟨n!"Uridine(aq)", 1735, n!"Aqueous|HKF|"⟩,  -- C9H12N2O6|9:C 12:H 2:N 6:O|0.0
  ⟨n!"Deoxyadenosine(aq)", 1736, n!"Aqueous|HKF|"⟩,  -- C10H13N5O3|10:C 13:H 5:N 3:O|0.0
  ⟨n!"Deoxycytidine(aq)", 1737, n!"Aqueous|HKF|"⟩,  -- C9H13N3O4|9:C 13:H 3:N 4:O|0.0
  ⟨n!"Deoxyguanosine(aq)", 1731, n!"Aqueous|HKF|"⟩,  -- C10H13N5O4|10:C 13:H 5:N 4:O|0.0
  ⟨n!"Deoxythymidine(aq)", 1738, n!"Aqueous|HKF|"⟩,  -- C10H14N2O5|10:C 14:H 2:N 5:O|0.0
  ⟨n!"Deoxyuridine(aq)", 1739, n!"Aqueous|HKF|"⟩,  -- C8H12N2O5|8:C 12:H 2:N 5:O|0.0
  ⟨n!"Ribose-5-Phosphate-2", 1740, n!"Aqueous|HKF|"⟩,  -- C5H9O8P-2|5:C 9:H 8:O 1:P|-2.0
  ⟨n!"AMP-2", 1741, n!"Aqueous|HKF|"⟩,  -- C10H12N5O7P-2|10:C 12:H 5:N 7:O 1:P|-2.0
  ⟨n!"H(AMP)-", 1742, n!"Aqueous|HKF|"⟩,  -- C10H13N5O7P-|10:C 13:H 5:N 7:O 1:P|-1.0
  ⟨n!"+H2(AMP)(aq)", 1743, n!"Aqueous|HKF|"⟩,  -- C10H14N5O7P|10:C 14:H 5:N 7:O 1:P|0.0
  ⟨n!"CMP-2", 1744, n!"Aqueous|HKF|"⟩,  -- C9H12N3O8P-2|9:C 12:H 3:N 8:O 1:P|-2.0
  ⟨n!"H(CMP)-", 1745, n!"Aqueous|HKF|"⟩,  -- C9H13N3O8P1-|9:C 13:H 3:N 8:O 1:P|-1.0
  ⟨n!"+H2(CMP)(aq)", 1746, n!"Aqueous|HKF|"⟩,  -- C9H14N3O8P|9:C 14:H 3:N 8:O 1:P|0.0
  ⟨n!"GMP-2", 1747, n!"Aqueous|HKF|"⟩,  -- C10H12N5O8P-2|10:C 12:H 5:N 8:O 1:P|-2.0
  ⟨n!"H(GMP)-", 1748, n!"Aqueous|HKF|"⟩,  -- C10H13N5O8P1-|10:C 13:H 5:N 8:O 1:P|-1.0
  ⟨n!"+H2(GMP)(aq)", 1749, n!"Aqueous|HKF|"⟩,  -- C10H14N5O8P|10:C 14:H 5:N 8:O 1:P|0.0
  ⟨n!"TMP-2", 1750, n!"Aqueous|HKF|"⟩,  -- C10H13N2O9P-2|10:C 13:H 2:N 9:O 1:P|-2.0
  ⟨n!"H(TMP)-", 1751, n!"Aqueous|HKF|"⟩,  -- C10H14N2O9P1-|10:C 14:H 2:N 9:O 1:P|-1.0
  ⟨n!"+H2(TMP)(aq)", 1752, n!"Aqueous|HKF|"⟩,  -- C10H15N2O9P|10:C 15:H 2:N 9:O 1:P|0.0
  ⟨n!"UMP-2", 1753, n!"Aqueous|HKF|"⟩,  -- C9H11N2O9P-2|9:C 11:H 2:N 9:O 1:P|-2.0
  ⟨n!"H(UMP)-", 1754, n!"Aqueous|HKF|"⟩,  -- C9H12N2O9P1-|9:C 12:H 2:N 9:O 1:P|-1.0
  ⟨n!"+H2(UMP)(aq)", 1755, n!"Aqueous|HKF|"⟩,  -- C9H13N2O9P|9:C 13:H 2:N 9:O 1:P|0.0
  ⟨n!"d(AMP)-2", 1756, n!"Aqueous|HKF|"⟩,  -- C10H12N5O6P-2|10:C 12:H 5:N 6:O 1:P|-2.0
  ⟨n!"dH(AMP)-", 1757, n!"Aqueous|HKF|"⟩,  -- C10H13N5O6P-|10:C 13:H 5:N 6:O 1:P|-1.0
  ⟨n!"d+H2(AMP)(aq)", 2264, n!"Aqueous|HKF|"⟩,  -- C10H14N5O6P|10:C 14:H 5:N 6:O 0:P|0.0
  ⟨n!"d(CMP)-2", 1758, n!"Aqueous|HKF|"⟩,  -- C9H12N3O7P-2|9:C 12:H 3:N 7:O 1:P|-2.0
  ⟨n!"dH(CMP)-", 1759, n!"Aqueous|HKF|"⟩,  -- C9H13N3O7P1-|9:C 13:H 3:N 7:O 1:P|-1.0
  ⟨n!"d+H2(CMP)(aq)", 1760, n!"Aqueous|HKF|"⟩,  -- C9H14N3O7P|9:C 14:H 3:N 7:O 1:P|0.0
  ⟨n!"d(GMP)-2", 1741, n!"Aqueous|HKF|"⟩,  -- C10H12N5O7P-2|10:C 12:H 5:N 7:O 1:P|-2.0
  ⟨n!"dH(GMP)-", 1761, n!"Aqueous|HKF|"⟩,  -- C10H13N5O7P1-|10:C 13:H 5:N 7:O 1:P|-1.0
  ⟨n!"d+H2(GMP)(aq)", 2265, n!"Aqueous|HKF|"⟩,  -- C10H14N5O7P|10:C 14:H 5:N 7:O 0:P|0.0
  ⟨n!"d(TMP)-2", 1762, n!"Aqueous|HKF|"⟩,  -- C10H13N2O8P-2|10:C 13:H 2:N 8:O 1:P|-2.0
  ⟨n!"dH(TMP)-", 1763, n!"Aqueous|HKF|"⟩,  -- C10H14N2O8P1-|10:C 14:H 2:N 8:O 1:P|-1.0
  ⟨n!"d+H2(TMP)(aq)", 1764, n!"Aqueous|HKF|"⟩,  -- C10H15N2O8P|10:C 15:H 2:N 8:O 1:P|0.0
  ⟨n!"d(UMP)-2", 1765, n!"Aqueous|HKF|"⟩,  -- C9H11N2O8P-2|9:C 11:H 2:N 8:O 1:P|-2.0
  ⟨n!"dH(UMP)-", 1766, n!"Aqueous|HKF|"⟩,  -- C9H12N2O8P1-|9:C 12:H 2:N 8:O 1:P|-1.0
  ⟨n!"d+H2(UMP)(aq)", 1767, n!"Aqueous|HKF|"⟩,  -- C9H13N2O8P|9:C 13:H 2:N 8:O 1:P|0.0
  ⟨n!"ADP-3", 1768, n!"Aqueous|HKF|"⟩,  -- C10H12N5O10P2-3|10:C 12:H 5:N 10:O 2:P|-3.0
  ⟨n!"H(ADP)-2", 1769, n!"Aqueous|HKF|"⟩,  -- C10H13N5O10P2-2|10:C 13:H 5:N 10:O 2:P|-2.0
  ⟨n!"+H2(ADP)-", 1770, n!"Aqueous|HKF|"⟩,  -- C10H14N5O10P2-|10:C 14:H 5:N 10:O 2:P|-1.0
  ⟨n!"+H3(ADP)(aq)", 1771, n!"Aqueous|HKF|"⟩,  -- C10H15N5O10P2|10:C 15:H 5:N 10:O 2:P|0.0
  ⟨n!"CDP-3", 1772, n!"Aqueous|HKF|"⟩,  -- C9H12N3O11P2-3|9:C 12:H 3:N 11:O 2:P|-3.0
  ⟨n!"H(CDP)-2", 1773, n!"Aqueous|HKF|"⟩,  -- C9H13N3O11P2-2|9:C 13:H 3:N 11:O 2:P|-2.0
  ⟨n!"+H2(CDP)-", 1774, n!"Aqueous|HKF|"⟩,  -- C9H14N3O11P2-|9:C 14:H 3:N 11:O 2:P|-1.0
  ⟨n!"+H3(CDP)(aq)", 1775, n!"Aqueous|HKF|"⟩,  -- C9H15N3O11P2|9:C 15:H 3:N 11:O 2:P|0.0
  ⟨n!"GDP-3", 1776, n!"Aqueous|HKF|"⟩,  -- C10H12N5O11P2-3|10:C 12:H 5:N 11:O 2:P|-3.0
  ⟨n!"H(GDP)-2", 2266, n!"Aqueous|HKF|"⟩,  -- C10H13N5O11P2-2|10:C 13:H 3:N 11:O 2:P|-2.0
  ⟨n!"+H2(GDP)-", 1777, n!"Aqueous|HKF|"⟩,  -- C10H14N5O11P2-|10:C 14:H 5:N 11:O 2:P|-1.0
  ⟨n!"+H3(GDP)(aq)", 1778, n!"Aqueous|HKF|"⟩,  -- C10H15N5O11P2|10:C 15:H 5:N 11:O 2:P|0.0
  ⟨n!"TDP-3", 1779, n!"Aqueous|HKF|"⟩,  -- C10H13N2O12P2-3|10:C 13:H 2:N 12:O 2:P|-3.0
  ⟨n!"H(TDP)-2", 1780, n!"Aqueous|HKF|"⟩,  -- C10H14N2O12P2-2|10:C 14:H 2:N 12:O 2:P|-2.0
  ⟨n!"+H2(TDP)-", 1781, n!"Aqueous|HKF|"⟩,  -- C10H15N2O12P2-|10:C 15:H 2:N 12:O 2:P|-1.0
  ⟨n!"+H3(TDP)(aq)", 1782, n!"Aqueous|HKF|"⟩,  -- C10H16N2O12P2|10:C 16:H 2:N 12:O 2:P|0.0
  ⟨n!"UDP-3", 1783, n!"Aqueous|HKF|"⟩,  -- C9H11N2O12P2-3|9:C 11:H 2:N 12:O 2:P|-3.0
  ⟨n!"H(UDP)-2", 1784, n!"Aqueous|HKF|"⟩,  -- C9H12N2O12P2-2|9:C 12:H 2:N 12:O 2:P|-2.0
  ⟨n!"+H2(UDP)-", 1785, n!"Aqueous|HKF|"⟩,  -- C9H13N2O12P2-|9:C 13:H 2:N 12:O 2:P|-1.0
  ⟨n!"+H3(UDP)(aq)", 1786, n!"Aqueous|HKF|"⟩,  -- C9H14N2O12P2|9:C 14:H 2:N 12:O 2:P|0.0
  ⟨n!"d(ADP)-3", 1787, n!"Aqueous|HKF|"⟩,  -- C10H12N5O9P2-3|10:C 12:H 5:N 9:O 2:P|-3.0
  ⟨n!"dH(ADP)-2", 1788, n!"Aqueous|HKF|"⟩,  -- C10H13N5O9P2-2|10:C 13:H 5:N 9:O 2:P|-2.0
  ⟨n!"d+H2(ADP)-", 1789, n!"Aqueous|HKF|"⟩,  -- C10H14N5O9P2-|10:C 14:H 5:N 9:O 2:P|-1.0
  ⟨n!"d+H3(ADP)(aq)", 1790, n!"Aqueous|HKF|"⟩,  -- C10H15N5O9P2|10:C 15:H 5:N 9:O 2:P|0.0
  ⟨n!"d(CDP)-3", 1791, n!"Aqueous|HKF|"⟩]  -- C9H12N3O10P2-3|9:C 12:H 3:N 10:O 2:P|-3.0

/-- `supcrt07.yaml:32559-34457`. -/
def part18 : List Row := [
  ⟨n!"dH(CDP)-2", 1792, n!"Aqueous|HKF|"⟩,  -- C9H13N3O10P2-2|9:C 13:H 3:N 10:O 2:P|-2.0
  ⟨n!"d+H2(CDP)-", 1793, n!"Aqueous|HKF|"⟩,  -- C9H14N3O10P2-|9:C 14:H 3:N 10:O 2:P|-1.0
  ⟨n!"d+H3(CDP)(aq)", 1794, n!"Aqueous|HKF|"⟩,  -- C9H15N3O10P2|9:C 15:H 3:N 10:O 2:P|0.0
  ⟨n!"d(GDP)-3", 1768, n!"Aqueous|HKF|"⟩,  -- C10H12N5O10P2-3|10:C 12:H 5:N 10:O 2:P|-3.0
  ⟨n!"dH(GDP)-2", 1769, n!"Aqueous|HKF|"⟩,  -- C10H13N5O10P2-2|10:C 13:H 5:N 10:O 2:P|-2.0
  ⟨n!"d+H2(GDP)-", 1770, n!"Aqueous|HKF|"⟩,  -- C10H14N5O10P2-|10:C 14:H 5:N 10:O 2:P|-1.0
  ⟨n!"d+H3(GDP)(aq)", 1771, n!"Aqueous|HKF|"⟩,  -- C10H15N5O10P2|10:C 15:H 5:N 10:O 2:P|0.0
  ⟨n!"d(TDP)-3", 1795, n!"Aqueous|HKF|"⟩,  -- C10H13N2O11P2-3|10:C 13:H 2:N 11:O 2:P|-3.0
  ⟨n!"dH(TDP)-2", 1796, n!"Aqueous|HKF|"⟩,  -- C10H14N2O11P2-2|10:C 14:H 2:N 11:O 2:P|-2.0
  ⟨n!"d+H2(TDP)-", 1797, n!"Aqueous|HKF|"⟩,  -- C10H15N2O11P2-|10:C 15:H 2:N 11:O 2:P|-1.0
  ⟨n!"d+H3(TDP)(aq)", 1798, n!"Aqueous|HKF|"⟩,  -- C10H16N2O11P2|10:C 16:H 2:N 11:O 2:P|0.0
  ⟨n!"d(UDP)-3", 1799, n!"Aqueous|HKF|"⟩,  -- C9H11N2O11P2-3|9:C 11:H 2:N 11:O 2:P|-3.0
  ⟨n!"dH(UDP)-2", 1800, n!"Aqueous|HKF|"⟩,  -- C9H12N2O11P2-2|9:C 12:H 2:N 11:O 2:P|-2.0
  ⟨n!"d+H2(UDP)-", 1801, n!"Aqueous|HKF|"⟩,  -- C9H13N2O11P2-|9:C 13:H 2:N 11:O 2:P|-1.0
  ⟨n!"d+H3(UDP)(aq)", 1802, n!"Aqueous|HKF|"⟩,  -- C9H14N2O11P2|9:C 14:H 2:N 11:O 2:P|0.0
  ⟨n!"ATP-4", 1803, n!"Aqueous|HKF|"⟩,  -- C10H12N5O13P3-4|10:C 12:H 5:N 13:O 3:P|-4.0
  ⟨n!"H(ATP)-3", 1804, n!"Aqueous|HKF|"⟩,  -- C10H13N5O13P3-3|10:C 13:H 5:N 13:O 3:P|-3.0
  ⟨n!"+H2(ATP)-2", 1805, n!"Aqueous|HKF|"⟩,  -- C10H14N5O13P3-2|10:C 14:H 5:N 13:O 3:P|-2.0
  ⟨n!"+H3(ATP)-", 1806, n!"Aqueous|HKF|"⟩,  -- C10H15N5O13P3-|10:C 15:H 5:N 13:O 3:P|-1.0
  ⟨n!"+H4(ATP)(aq)", 1807, n!"Aqueous|HKF|"⟩,  -- C10H16N5O13P3|10:C 16:H 5:N 13:O 3:P|0.0
  ⟨n!"CTP-4", 1808, n!"Aqueous|HKF|"⟩,  -- C9H12N3O14P3-4|9:C 12:H 3:N 14:O 3:P|-4.0
  ⟨n!"H(CTP)-3", 1809, n!"Aqueous|HKF|"⟩,  -- C9H13N3O14P3-3|9:C 13:H 3:N 14:O 3:P|-3.0
  ⟨n!"+H2(CTP)-2", 1810, n!"Aqueous|HKF|"⟩,  -- C9H14N3O14P3-2|9:C 14:H 3:N 14:O 3:P|-2.0
  ⟨n!"+H3(CTP)-", 1811, n!"Aqueous|HKF|"⟩,  -- C9H15N3O14P3-|9:C 15:H 3:N 14:O 3:P|-1.0
  ⟨n!"+H4(CTP)(aq)", 1812, n!"Aqueous|HKF|"⟩,  -- C9H16N3O14P3|9:C 16:H 3:N 14:O 3:P|0.0
  ⟨n!"GTP-4", 1813, n!"Aqueous|HKF|"⟩,  -- C10H12N5O14P3-4|10:C 12:H 5:N 14:O 3:P|-4.0
  ⟨n!"H(GTP)-3", 1814, n!"Aqueous|HKF|"⟩,  -- C10H13N5O14P3-3|10:C 13:H 5:N 14:O 3:P|-3.0
  ⟨n!"+H2(GTP)-2", 1815, n!"Aqueous|HKF|"⟩,  -- C10H14N5O14P3-2|10:C 14:H 5:N 14:O 3:P|-2.0
  ⟨n!"+H3(GTP)-", 1816, n!"Aqueous|HKF|"⟩,  -- C10H15N5O14P3-|10:C 15:H 5:N 14:O 3:P|-1.0
  ⟨n!"+H4(GTP)(aq)", 1817, n!"Aqueous|HKF|"⟩,  -- C10H16N5O14P3|10:C 16:H 5:N 14:O 3:P|0.0
  ⟨n!"TTP-4", 1818, n!"Aqueous|HKF|"⟩,  -- C10H13N2O15P3-4|10:C 13:H 2:N 15:O 3:P|-4.0
  ⟨n!"H(TTP)-3", 1819, n!"Aqueous|HKF|"⟩,  -- C10H14N2O15P3-3|10:C 14:H 2:N 15:O 3:P|-3.0
  ⟨n!"+H2(TTP)-2", 1820, n!"Aqueous|HKF|"⟩,  -- C10H15N2O15P3-2|10:C 15:H 2:N 15:O 3:P|-2.0
  ⟨n!"+H3(TTP)-", 1821, n!"Aqueous|HKF|"⟩,  -- C10H16N2O15P3-|10:C 16:H 2:N 15:O 3:P|-1.0
  ⟨n!"+H4(TTP)(aq)", 1822, n!"Aqueous|HKF|"⟩,  -- C10H17N2O15P3|10:C 17:H 2:N 15:O 3:P|0.0
  ⟨n!"UTP-4", 1823, n!"Aqueous|HKF|"⟩,  -- C9H11N2O15P3-4|9:C 11:H 2:N 15:O 3:P|-4.0
  ⟨n!"H(UTP)-3", 1824, n!"Aqueous|HKF|"⟩,  -- C9H12N2O15P3-3|9:C 12:H 2:N 15:O 3:P|-3.0
  ⟨n!"+H2(UTP)-2", 1825, n!"Aqueous|HKF|"⟩,  -- C9H13N2O15P3-2|9:C 13:H 2:N 15:O 3:P|-2.0
  ⟨n!"+H3(UTP)-", 1826, n!"Aqueous|HKF|"⟩,  -- C9H14N2O15P3-|9:C 14:H 2:N 15:O 3:P|-1.0
  ⟨n!"+H4(UTP)(aq)", 1827, n!"Aqueous|HKF|"⟩,  -- C9H15N2O15P3|9:C 15:H 2:N 15:O 3:P|0.0
  ⟨n!"d(ATP)-4", 1828, n!"Aqueous|HKF|"⟩,  -- C10H12N5O12P3-4|10:C 12:H 5:N 12:O 3:P|-4.0
  ⟨n!"dH(ATP)-3", 1829, n!"Aqueous|HKF|"⟩,  -- C10H13N5O12P3-3|10:C 13:H 5:N 12:O 3:P|-3.0
  ⟨n!"d+H2(ATP)-2", 1830, n!"Aqueous|HKF|"⟩,  -- C10H14N5O12P3-2|10:C 14:H 5:N 12:O 3:P|-2.0
  ⟨n!"d+H3(ATP)-", 1831, n!"Aqueous|HKF|"⟩,  -- C10H15N5O12P3-|10:C 15:H 5:N 12:O 3:P|-1.0
  ⟨n!"d+H4(ATP)(aq)", 1832, n!"Aqueous|HKF|"⟩,  -- C10H16N5O12P3|10:C 16:H 5:N 12:O 3:P|0.0
  ⟨n!"d(CTP)-4", 1833, n!"Aqueous|HKF|"⟩,  -- C9H12N3O13P3-4|9:C 12:H 3:N 13:O 3:P|-4.0
  ⟨n!"dH(CTP)-3", 1834, n!"Aqueous|HKF|"⟩,  -- C9H13N3O13P3-3|9:C 13:H 3:N 13:O 3:P|-3.0
  ⟨n!"d+H2(CTP)-2", 1835, n!"Aqueous|HKF|"⟩,  -- C9H14N3O13P3-2|9:C 14:H 3:N 13:O 3:P|-2.0
  ⟨n!"d+H3(CTP)-", 1836, n!"Aqueous|HKF|"⟩,  -- C9H15N3O13P3-|9:C 15:H 3:N 13:O 3:P|-1.0
  ⟨n!"d+H4(CTP)(aq)", 1837, n!"Aqueous|HKF|"⟩,  -- C9H16N3O13P3|9:C 16:H 3:N 13:O 3:P|0.0
  ⟨n!"d(GTP)-4", 1803, n!"Aqueous|HKF|"⟩,  -- C10H12N5O13P3-4|10:C 12:H 5:N 13:O 3:P|-4.0
  ⟨n!"dH(GTP)-3", 1804, n!"Aqueous|HKF|"⟩,  -- C10H13N5O13P3-3|10:C 13:H 5:N 13:O 3:P|-3.0
  ⟨n!"d+H2(GTP)-2", 1805, n!"Aqueous|HKF|"⟩,  -- C10H14N5O13P3-2|10:C 14:H 5:N 13:O 3:P|-2.0
  ⟨n!"d+H3(GTP)-", 1806, n!"Aqueous|HKF|"⟩,  -- C10H15N5O13P3-|10:C 15:H 5:N 13:O 3:P|-1.0
  ⟨n!"d+H4(GTP)(aq)", 1807, n!"Aqueous|HKF|"⟩,  -- C10H16N5O13P3|10:C 16:H 5:N 13:O 3:P|0.0
  ⟨n!"d(TTP)-4", 1838, n!"Aqueous|HKF|"⟩,  -- C10H13N2O14P3-4|10:C 13:H 2:N 14:O 3:P|-4.0
  ⟨n!"dH(TTP)-3", 1839, n!"Aqueous|HKF|"⟩,  -- C10H14N2O14P3-3|10:C 14:H 2:N 14:O 3:P|-3.0
  ⟨n!"d+H2(TTP)-2", 1840, n!"Aqueous|HKF|"⟩,  -- C10H15N2O14P3-2|10:C 15:H 2:N 14:O 3:P|-2.0
  ⟨n!"d+H3(TTP)-", 1841, n!"Aqueous|HKF|"⟩,  -- C10H16N2O14P3-|10:C 16:H 2:N 14:O 3:P|-1.0
  ⟨n!"d+H4(TTP)(aq)", 1842, n!"Aqueous|HKF|"⟩,  -- C10H17N2O14P3|10:C 17:H 2:N 14:O 3:P|0.0
  ⟨n!"d(UTP)-4", 1843, n!"Aqueous|HKF|"⟩,  -- C9H11N2O14P3-4|9:C 11:H 2:N 14:O 3:P|-4.0
  ⟨n!"dH(UTP)-3", 1844, n!"Aqueous|HKF|"⟩,  -- C9H12N2O14P3-3|9:C 12:H 2:N 14:O 3:P|-3.0
  ⟨n!"d+H2(UTP)-2", 1845, n!"Aqueous|HKF|"⟩,  -- C9H13N2O14P3-2|9:C 13:H 2:N 14:O 3:P|-2.0
  ⟨n!"d+H3(UTP)-", 1846, n!"Aqueous|HKF|"⟩,  -- C9H14N2O14P3-|9:C 14:H 2:N 14:O 3:P|-1.0
  ⟨n!"d+H4(UTP)(aq)", 1847, n!"Aqueous|HKF|"⟩,  -- C9H15N2O14P3|9:C 15:H 2:N 14:O 3:P|0.0
  ⟨n!"Methanethiol(aq)", 1848, n!"Aqueous|HKF|"⟩,  -- CH3SH|1:C 4:H 1:S|0.0
  ⟨n!"Ethanethiol(aq)", 1849, n!"Aqueous|HKF|"⟩,  -- C2H5SH|2:C 6:H 1:S|0.0
  ⟨n!"n-Propanethiol(aq)", 1850, n!"Aqueous|HKF|"⟩,  -- C3H7SH|3:C 8:H 1:S|0.0
  ⟨n!"n-Butanethiol(aq)", 1851, n!"Aqueous|HKF|"⟩,  -- C4H9SH|4:C 10:H 1:S|0.0
  ⟨n!"n-Pentanethiol(aq)", 1852, n!"Aqueous|HKF|"⟩,  -- C5H11SH|5:C 12:H 1:S|0.0
  ⟨n!"n-Hexanethiol(aq)", 1853, n!"Aqueous|HKF|"⟩,  -- C6H13SH|6:C 14:H 1:S|0.0
  ⟨n!"n-Heptanethiol(aq)", 1854, n!"Aqueous|HKF|"⟩,  -- C7H15SH|7:C 16:H 1:S|0.0
  ⟨n!"n-Octanethiol(aq)", 1855, n!"Aqueous|HKF|"⟩,  -- C8H17SH|8:C 18:H 1:S|0.0
  ⟨n!"n-Nonanethiol(aq)", 1856, n!"Aqueous|HKF|"⟩,  -- C9H19SH|9:C 20:H 1:S|0.0
  ⟨n!"n-Decanethiol(aq)", 1857, n!"Aqueous|HKF|"⟩,  -- C10H21SH|10:C 22:H 1:S|0.0
  ⟨n!"n-Undecanethiol(aq)", 1858, n!"Aqueous|HKF|"⟩,  -- C11H23SH|11:C 24:H 1:S|0.0
  ⟨n!"n-Dodecanethiol(aq)", 1859, n!"Aqueous|HKF|"⟩,  -- C12H25SH|12:C 26:H 1:S|0.0
  ⟨n!"Xylose(aq)", 2267, n!"Aqueous|HKF|"⟩,  -- C5H10O6|5:C 10:H 5:O|0.0
  ⟨n!"Arabinose(aq)", 2268, n!"Aqueous|HKF|"⟩,  -- C5H10O7|5:C 10:H 5:O|0.0
  ⟨n!"Lyxose(aq)", 2269, n!"Aqueous|HKF|"⟩,  -- C5H10O8|5:C 10:H 5:O|0.0
  ⟨n!"Xylulose(aq)", 2270, n!"Aqueous|HKF|"⟩,  -- C5H10O9|5:C 10:H 5:O|0.0
  ⟨n!"Ribulose(aq)", 1729, n!"Aqueous|HKF|"⟩,  -- C5H10O5|5:C 10:H 5:O|0.0
  ⟨n!"Glucose(aq)", 1860, n!"Aqueous|HKF|"⟩,  -- C6H12O6|6:C 12:H 6:O|0.0
  ⟨n!"Mannose(aq)", 1860, n!"Aqueous|HKF|"⟩,  -- C6H12O6|6:C 12:H 6:O|0.0
  ⟨n!"Galactose(aq)", 1860, n!"Aqueous|HKF|"⟩,  -- C6H12O6|6:C 12:H 6:O|0.0
  ⟨n!"Fructose(aq)", 1860, n!"Aqueous|HKF|"⟩,  -- C6H12O6|6:C 12:H 6:O|0.0
  ⟨n!"Sorbose(aq)", 1860, n!"Aqueous|HKF|"⟩,  -- C6H12O6|6:C 12:H 6:O|0.0
  ⟨n!"MgAMP(aq)", 1861, n!"Aqueous|HKF|"⟩,  -- MgC10H12N5O7P1|1:Mg 10:C 12:H 5:N 7:O 1:P|0.0
  ⟨n!"MgADP-", 1862, n!"Aqueous|HKF|"⟩,  -- MgC10H12N5O10P2-|1:Mg 10:C 12:H 5:N 10:O 2:P|-1.0
  ⟨n!"MgHADP(aq)", 1863, n!"Aqueous|HKF|"⟩,  -- MgC10H13N5O10P2|1:Mg 10:C 13:H 5:N 10:O 2:P|0.0
  ⟨n!"Mg2ADP+", 1864, n!"Aqueous|HKF|"⟩,  -- Mg2C10H12N5O10P2+|2:Mg 10:C 12:H 5:N 10:O 2:P|1.0
  ⟨n!"MgATP-2", 1865, n!"Aqueous|HKF|"⟩,  -- MgC10H12N5O13P3-2|1:Mg 10:C 12:H 5:N 13:O 3:P|-2.0
  ⟨n!"MgHATP-", 1866, n!"Aqueous|HKF|"⟩,  -- MgC10H13N5O13P3-|1:Mg 10:C 13:H 5:N 13:O 3:P|-1.0
  ⟨n!"MgH2ATP(aq)", 1867, n!"Aqueous|HKF|"⟩,  -- MgC10H14N5O13P3|1:Mg 10:C 14:H 5:N 13:O 3:P|0.0
  ⟨n!"Mg2ATP(aq)", 1868, n!"Aqueous|HKF|"⟩,  -- Mg2C10H12N5O13P3|2:Mg 10:C 12:H 5:N 13:O 3:P|0.0
  ⟨n!"H2(NicMP),red(aq)", 1869, n!"Aqueous|HKF|"⟩,  -- C11H17N2O8P1|11:C 17:H 2:N 8:O 1:P|0.0
  ⟨n!"H(NicMP),red-", 1870, n!"Aqueous|HKF|"⟩,  -- C11H16N2O8P1-|11:C 16:H 2:N 8:O 1:P|-1.0
  ⟨n!"(NicMP),red-2", 1871, n!"Aqueous|HKF|"⟩,  -- C11H15N2O8P1-2|11:C 15:H 2:N 8:O 1:P|-2.0
  ⟨n!"H2(NicMP),ox+", 1872, n!"Aqueous|HKF|"⟩,  -- C11H16N2O8P1+|11:C 16:H 2:N 8:O 1:P|1.0
  ⟨n!"H(NicMP),ox(aq)", 1873, n!"Aqueous|HKF|"⟩]  -- C11H15N2O8P1|11:C 15:H 2:N 8:O 1:P|0.0

/-- `supcrt07.yaml:34458-34838`. -/
def part19 : List Row := [
  ⟨n!"(NicMP),ox-", 1874, n!"Aqueous|HKF|"⟩,  -- C11H14N2O8P1-|11:C 14:H 2:N 8:O 1:P|-1.0
  ⟨n!"H2(NAD),red(aq)", 1875, n!"Aqueous|HKF|"⟩,  -- C21H29N7O14P2|21:C 29:H 7:N 14:O 2:P|0.0
  ⟨n!"H(NAD),red-", 1876, n!"Aqueous|HKF|"⟩,  -- C21H28N7O14P2-|21:C 28:H 7:N 14:O 2:P|-1.0
  ⟨n!"(NAD),red-2", 1877, n!"Aqueous|HKF|"⟩,  -- C21H27N7O14P2-2|21:C 27:H 7:N 14:O 2:P|-2.0
  ⟨n!"H2(NAD),ox+", 1878, n!"Aqueous|HKF|"⟩,  -- C21H28N7O14P2+|21:C 28:H 7:N 14:O 2:P|1.0
  ⟨n!"H(NAD),ox(aq)", 1879, n!"Aqueous|HKF|"⟩,  -- C21H27N7O14P2|21:C 27:H 7:N 14:O 2:P|0.0
  ⟨n!"(NAD),ox-", 1880, n!"Aqueous|HKF|"⟩,  -- C21H26N7O14P2-|21:C 26:H 7:N 14:O 2:P|-1.0
  ⟨n!"R5P(aq)", 1881, n!"Aqueous|HKF|"⟩,  -- C5H11O8P1|5:C 11:H 8:O 1:P|0.0
  ⟨n!"R5P-", 1882, n!"Aqueous|HKF|"⟩,  -- C5H10O8P1-|5:C 10:H 8:O 1:P|-1.0
  ⟨n!"R5P-2", 1740, n!"Aqueous|HKF|"⟩,  -- C5H9O8P-2|5:C 9:H 8:O 1:P|-2.0
  ⟨n!"H4(NADP),red(aq)", 1883, n!"Aqueous|HKF|"⟩,  -- C21H30N7O17P3|21:C 30:H 7:N 17:O 3:P|0.0
  ⟨n!"H3(NADP),red-", 1884, n!"Aqueous|HKF|"⟩,  -- C21H29N7O17P3-|21:C 29:H 7:N 17:O 3:P|-1.0
  ⟨n!"H2(NADP),red-2", 1885, n!"Aqueous|HKF|"⟩,  -- C21H28N7O17P3-2|21:C 28:H 7:N 17:O 3:P|-2.0
  ⟨n!"H(NADP),red-3", 1886, n!"Aqueous|HKF|"⟩,  -- C21H27N7O17P3-3|21:C 27:H 7:N 17:O 3:P|-3.0
  ⟨n!"(NADP),red-4", 1887, n!"Aqueous|HKF|"⟩,  -- C21H26N7O17P3-4|21:C 26:H 7:N 17:O 3:P|-4.0
  ⟨n!"H4(NADP),ox+", 1888, n!"Aqueous|HKF|"⟩,  -- C21H29N7O17P3+|21:C 29:H 7:N 17:O 3:P|1.0
  ⟨n!"H3(NADP),ox(aq)", 1889, n!"Aqueous|HKF|"⟩,  -- C21H28N7O17P3|21:C 28:H 7:N 17:O 3:P|0.0
  ⟨n!"H2(NADP),ox-", 1890, n!"Aqueous|HKF|"⟩,  -- C21H27N7O17P3-|21:C 27:H 7:N 17:O 3:P|-1.0
  ⟨n!"H(NADP),ox-2", 1891, n!"Aqueous|HKF|"⟩,  -- C21H26N7O17P3-2|21:C 26:H 7:N 17:O 3:P|-2.0
  ⟨n!"(NADP),ox-3", 1892, n!"Aqueous|HKF|"⟩]  -- C21H25N7O17P3-3|21:C 25:H 7:N 17:O 3:P|-3.0

/-- The species of `supcrt07.yaml`. -/
def parts : List (List Row) := [part0, part1, part2, part3, part4, part5, part6, part7, part8, part9, part10,
  part11, part12, part13, part14, part15, part16, part17, part18, part19]

end Verif.ShippedData.Supcrt07
