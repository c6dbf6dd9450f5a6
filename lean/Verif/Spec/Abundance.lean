/-! The natural abundances, generated by tools/tables.py from the text of
abundance.py; that the code reads its text as this table is proved in
`Verif.Props.Tables`. -/
namespace X4

/-- `(Z, A, abundance, uncertainty)` in millionths of a percent -/
def abundanceTable : List (Int × Int × Nat × Nat) := [
  (1, 1, 99985001, 1000),
  (1, 2, 15000, 1000),
  (2, 3, 137, 3),
  (2, 4, 99999863, 3),
  (3, 6, 7590000, 40000),
  (3, 7, 92410004, 40000),
  (4, 9, 100000000, 0),
  (5, 10, 19799999, 300000),
  (5, 11, 80199997, 300000),
  (6, 12, 98889999, 10000),
  (6, 13, 1110000, 10000),
  (7, 14, 99634003, 20000),
  (7, 15, 366000, 20000),
  (8, 16, 99762001, 16000),
  (8, 17, 38000, 1000),
  (8, 18, 200000, 14000),
  (9, 19, 100000000, 0),
  (10, 20, 90480003, 30000),
  (10, 21, 270000, 10000),
  (10, 22, 9250000, 30000),
  (11, 23, 100000000, 0),
  (12, 24, 78989998, 40000),
  (12, 25, 10000000, 10000),
  (12, 26, 11010000, 30000),
  (13, 27, 100000000, 0),
  (14, 28, 92230003, 19000),
  (14, 29, 4683000, 8000),
  (14, 30, 3087000, 5000),
  (15, 31, 100000000, 0),
  (16, 32, 95019997, 90000),
  (16, 33, 750000, 10000),
  (16, 34, 4210000, 80000),
  (16, 36, 20000, 10000),
  (17, 35, 75769997, 40000),
  (17, 37, 24230000, 40000),
  (18, 36, 336500, 3000),
  (18, 38, 63200, 500),
  (18, 40, 99600304, 3000),
  (19, 39, 93258102, 4400),
  (19, 40, 11700, 100),
  (19, 41, 6730200, 4400),
  (20, 40, 96940002, 160000),
  (20, 42, 647000, 23000),
  (20, 43, 135000, 10000),
  (20, 44, 2090000, 110000),
  (20, 46, 4000, 3000),
  (20, 48, 187000, 21000),
  (21, 45, 100000000, 0),
  (22, 46, 8250000, 30000),
  (22, 47, 7440000, 20000),
  (22, 48, 73720001, 30000),
  (22, 49, 5410000, 20000),
  (22, 50, 5180000, 20000),
  (23, 50, 250000, 2000),
  (23, 51, 99750000, 2000),
  (24, 50, 4345000, 13000),
  (24, 52, 83789001, 18000),
  (24, 53, 9501000, 17000),
  (24, 54, 2365000, 7000),
  (25, 55, 100000000, 0),
  (26, 54, 5845000, 35000),
  (26, 56, 91753998, 36000),
  (26, 57, 2119000, 10000),
  (26, 58, 282000, 4000),
  (27, 59, 100000000, 0),
  (28, 58, 68077003, 9000),
  (28, 60, 26223000, 8000),
  (28, 61, 1140000, 1000),
  (28, 62, 3634000, 2000),
  (28, 64, 926000, 1000),
  (29, 63, 69169998, 30000),
  (29, 65, 30830000, 30000),
  (30, 64, 48630001, 600000),
  (30, 66, 27900000, 270000),
  (30, 67, 4100000, 130000),
  (30, 68, 18750000, 510000),
  (30, 70, 620000, 30000),
  (31, 69, 60108002, 9000),
  (31, 71, 39891998, 9000),
  (32, 70, 20370001, 180000),
  (32, 72, 27309999, 260000),
  (32, 73, 7760000, 80000),
  (32, 74, 36730000, 150000),
  (32, 76, 7830000, 70000),
  (33, 75, 100000000, 0),
  (34, 74, 890000, 40000),
  (34, 76, 9370000, 290000),
  (34, 77, 7630000, 160000),
  (34, 78, 23770000, 280000),
  (34, 80, 49610001, 410000),
  (34, 82, 8730000, 220000),
  (35, 79, 50689999, 70000),
  (35, 81, 49310001, 70000),
  (36, 78, 350000, 10000),
  (36, 80, 2280000, 60000),
  (36, 82, 11580000, 140000),
  (36, 83, 11490000, 60000),
  (36, 84, 57000000, 40000),
  (36, 86, 17299999, 220000),
  (37, 85, 72169998, 20000),
  (37, 87, 27830000, 20000),
  (38, 84, 560000, 10000),
  (38, 86, 9860000, 10000),
  (38, 87, 7000000, 10000),
  (38, 88, 82580002, 10000),
  (39, 89, 100000000, 0),
  (40, 90, 51450001, 400000),
  (40, 91, 11220000, 50000),
  (40, 92, 17150000, 80000),
  (40, 94, 17379999, 280000),
  (40, 96, 2800000, 90000),
  (41, 93, 100000000, 0),
  (42, 92, 14840000, 350000),
  (42, 94, 9250000, 120000),
  (42, 95, 15920000, 130000),
  (42, 96, 16680000, 20000),
  (42, 97, 9550000, 80000),
  (42, 98, 24129999, 310000),
  (42, 100, 9630000, 230000),
  (44, 96, 5540000, 140000),
  (44, 98, 1870000, 30000),
  (44, 99, 12760000, 140000),
  (44, 100, 12600000, 70000),
  (44, 101, 17059999, 20000),
  (44, 102, 31549999, 140000),
  (44, 104, 18620001, 270000),
  (45, 103, 100000000, 0),
  (46, 102, 1020000, 10000),
  (46, 104, 11140000, 80000),
  (46, 105, 22330000, 80000),
  (46, 106, 27330000, 30000),
  (46, 108, 26459999, 90000),
  (46, 110, 11720000, 90000),
  (47, 107, 51839001, 8000),
  (47, 109, 48160999, 8000),
  (48, 106, 1250000, 60000),
  (48, 108, 890000, 30000),
  (48, 110, 12490000, 180000),
  (48, 111, 12800000, 120000),
  (48, 112, 24129999, 210000),
  (48, 113, 12220000, 120000),
  (48, 114, 28730000, 420000),
  (48, 116, 7490000, 180000),
  (49, 113, 4290000, 50000),
  (49, 115, 95709999, 50000),
  (50, 112, 970000, 10000),
  (50, 114, 660000, 10000),
  (50, 115, 340000, 10000),
  (50, 116, 14540000, 90000),
  (50, 117, 7680000, 70000),
  (50, 118, 24219999, 90000),
  (50, 119, 8590000, 40000),
  (50, 120, 32580002, 90000),
  (50, 122, 4630000, 30000),
  (50, 124, 5790000, 50000),
  (51, 121, 57209999, 50000),
  (51, 123, 42790001, 50000),
  (52, 120, 90000, 10000),
  (52, 122, 2550000, 120000),
  (52, 123, 890000, 30000),
  (52, 124, 4740000, 140000),
  (52, 125, 7070000, 150000),
  (52, 126, 18840000, 250000),
  (52, 128, 31740000, 80000),
  (52, 130, 34080002, 620000),
  (53, 127, 100000000, 0),
  (54, 124, 95000, 3000),
  (54, 126, 89000, 1000),
  (54, 128, 1910000, 22000),
  (54, 129, 26400000, 180000),
  (54, 130, 4071000, 53000),
  (54, 131, 21232000, 62000),
  (54, 132, 26909000, 68000),
  (54, 134, 10436000, 29000),
  (54, 136, 8857000, 33000),
  (55, 133, 100000000, 0),
  (56, 130, 106000, 1000),
  (56, 132, 101000, 1000),
  (56, 134, 2417000, 18000),
  (56, 135, 6592000, 12000),
  (56, 136, 7854000, 24000),
  (56, 137, 11232000, 24000),
  (56, 138, 71697998, 42000),
  (57, 138, 90000, 1000),
  (57, 139, 99910004, 1000),
  (58, 136, 185000, 2000),
  (58, 138, 251000, 2000),
  (58, 140, 88449997, 18000),
  (58, 142, 11114000, 17000),
  (59, 141, 100000000, 0),
  (60, 142, 27200001, 500000),
  (60, 143, 12200000, 200000),
  (60, 144, 23799999, 300000),
  (60, 145, 8300000, 100000),
  (60, 146, 17200001, 300000),
  (60, 148, 5700000, 100000),
  (60, 150, 5600000, 200000),
  (62, 144, 3070000, 70000),
  (62, 147, 14990000, 180000),
  (62, 148, 11240000, 100000),
  (62, 149, 13820000, 70000),
  (62, 150, 7380000, 10000),
  (62, 152, 26750000, 160000),
  (62, 154, 22750000, 290000),
  (63, 151, 47810001, 30000),
  (63, 153, 52189999, 30000),
  (64, 152, 200000, 10000),
  (64, 154, 2180000, 30000),
  (64, 155, 14800000, 120000),
  (64, 156, 20469999, 90000),
  (64, 157, 15650000, 20000),
  (64, 158, 24840000, 70000),
  (64, 160, 21860001, 190000),
  (65, 159, 100000000, 0),
  (66, 156, 60000, 10000),
  (66, 158, 100000, 10000),
  (66, 160, 2340000, 80000),
  (66, 161, 18910000, 240000),
  (66, 162, 25510000, 260000),
  (66, 163, 24900000, 160000),
  (66, 164, 28180000, 370000),
  (67, 165, 100000000, 0),
  (68, 162, 139000, 5000),
  (68, 164, 1601000, 3000),
  (68, 166, 33502998, 36000),
  (68, 167, 22868999, 9000),
  (68, 168, 26978001, 18000),
  (68, 170, 14910000, 36000),
  (69, 169, 100000000, 0),
  (70, 168, 130000, 10000),
  (70, 170, 3040000, 150000),
  (70, 171, 14280000, 570000),
  (70, 172, 21830000, 670000),
  (70, 173, 16129999, 270000),
  (70, 174, 31830000, 920000),
  (70, 176, 12760000, 410000),
  (71, 175, 97410004, 20000),
  (71, 176, 2590000, 20000),
  (72, 174, 160000, 10000),
  (72, 176, 5260000, 70000),
  (72, 177, 18600000, 90000),
  (72, 178, 27280001, 70000),
  (72, 179, 13620000, 20000),
  (72, 180, 35080002, 160000),
  (73, 180, 12000, 2000),
  (73, 181, 99987999, 2000),
  (74, 180, 120000, 10000),
  (74, 182, 26500000, 160000),
  (74, 183, 14310000, 40000),
  (74, 184, 30639999, 20000),
  (74, 186, 28430000, 190000),
  (75, 185, 37400002, 20000),
  (75, 187, 62599998, 20000),
  (76, 184, 20000, 10000),
  (76, 186, 1590000, 30000),
  (76, 187, 1600000, 300000),
  (76, 188, 13290000, 80000),
  (76, 189, 16209999, 50000),
  (76, 190, 26360001, 20000),
  (76, 192, 40930000, 190000),
  (77, 191, 37299999, 200000),
  (77, 193, 62700001, 200000),
  (78, 190, 14000, 1000),
  (78, 192, 782000, 7000),
  (78, 194, 32966999, 99000),
  (78, 195, 33832001, 10000),
  (78, 196, 25242001, 41000),
  (78, 198, 7163000, 55000),
  (79, 197, 100000000, 0),
  (80, 196, 150000, 10000),
  (80, 198, 9970000, 200000),
  (80, 199, 16870001, 220000),
  (80, 200, 23100000, 190000),
  (80, 201, 13180000, 90000),
  (80, 202, 29860001, 260000),
  (80, 204, 6870000, 150000),
  (81, 203, 29524000, 14000),
  (81, 205, 70475998, 14000),
  (82, 204, 1400000, 100000),
  (82, 206, 24100000, 100000),
  (82, 207, 22100000, 100000),
  (82, 208, 52400002, 100000),
  (83, 209, 100000000, 0),
  (90, 232, 100000000, 0),
  (92, 234, 5400, 500),
  (92, 235, 720400, 600),
  (92, 238, 99274200, 1000)]

end X4
