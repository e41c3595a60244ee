# A Lean 4 model of ocgis

Layout of `lean/Verif/`:

* `Py.lean` – the Python/numpy primitives the models use (exceptions, `slice` semantics, `array_split`, ...).
* `Model/*.lean` – the model, function by function; every definition cites the file and lines of `/repo/src/ocgis` it models and says what is simplified.
* `Spec/*.lean` – small specifications used in theorem statements, written without reference to the model's helpers.
* `Proofs/*.lean` – helper lemmas.
* `Props/*.lean` – the property theorems (named `Cnn_...`), each with a non-vacuity `example` beside it.

Conventions: an exception is a value (`Except PyErr α`); mutation becomes a returned state; loops become folds or structural
recursion; numpy arrays become lists (or functions from indices for n-dimensional arrays); floats are modelled by rationals
(`Rat`/`Int`), so no statement is made about rounding; strings and names are `String` or an arbitrary type with decidable equality.

When the code violates a property, the theorem about the code is a negation with a concrete witness (suffix `_counterexample`),
and a `_partial` theorem says under what guard the property does hold.

## Trusted base

* Lean's kernel (4.33.0) and the axioms `propext`, `Classical.choice`, `Quot.sound` (per theorem: see "Axioms" below).
* The reading of the Python code into the definitions of `Model/`. Nothing ties the model to the code mechanically.
* The semantics given in `Py.lean` to Python and numpy primitives.
* The execution model of `Model/Comm.lean`: ranks take steps in any order; point-to-point messages between a pair of ranks
  with the same tag arrive in the order sent; a collective completes when all ranks have entered it. `Model/Reindex.lean`
  adds a switch for prompt or delayed delivery. Cancelling a non-blocking request that is being matched is not modelled.
* Geometry predicates (`intersects`, `intersection`, area) are parameters of the models; the theorems hold for any such
  functions, under the hypotheses stated.
* Strings are lists of characters; blanks, digits and letter case are the ASCII ones.
* Not modelled: file formats and I/O (netCDF, shapefile, CSV bytes), shapely/OGR/GEOS itself, ESMF itself, floating-point
  rounding and overflow, real MPI transport (only its message order), dtype conversion, logging, plotting, packaging,
  the command line interface, `contrib/`.

### Modelled code

Generated from the citations in the model's comments (paths relative to `/repo/src/ocgis`, a citation without lines is to the
file as a whole). Code that is not cited here is not modelled.

<!-- MODELLED -->
| model | cites |
|---|---|
| `Py.lean` (15 definitions) | (Python and numpy primitives) |
| `Model/AggNc.lean` (31 definitions) | conv/nc.py: 114-306, 180-199, 138-139, 136-220, 114-220, 260-290, 292-306, 232-246, 222-258; conv/base.py: 118-123, 160-204, 170-198, 160-198, 118-123; driver/nc.py: 648-656, 154-162, 142-170, 94-141, 179-227, 135-136; constants.py: 197, 67, 282-288; variable/base.py: 2194-2224; driver/base.py: 795-797 |
| `Model/Aggregate.lean` (18 definitions) | calc/base.py: 22-23, 410-425, 427-439, 537-542, 547-549, 488-503, 480-503, 456-460, 444-523, 275-286, 505-508, 513-515 |
| `Model/Alias.lean` (40 definitions) | variable/base.py: 854, 221-320, 1701-1757, 765-823, 2634-2648, 1036-1047, 1026-1053, 359-361, 369-370, 1012-1024, 2529-2541, 339-370, 1917-1920, 1779-1792, 1908-1922, 852-858, 326-334, 322-334, 1759-1793, 846-861, 52-67, 1759-1793, 875-876, 1863, 1860-1864, 1875-1877, 1865-1877, 870-877, 863-881, 1450-1453, 1458-1461, 1047-1049, 2244-2266; variable/attributes.py: 16-36, 20-36; collection/base.py: 55-58 |
| `Model/AttrSearch.lean` (6 definitions) | variable/base.py: 1937-1968, 1960-1965, 1958-1967, 1953-1959, 1951-1968; driver/base.py: 979-985 |
| `Model/Average.lean` (49 definitions) | variable/geom.py: 899-901, 935-940, 237-246, 320, 319-321, 924-931, 922-940, 902-906, 908-951, 988, 963-965, 966-968, 1003-1006, 1006, 997, 1002-1010, 1009-1010, 974-1010, 1011-1025, 956-1025, 886-1025, 918-941, 944-951, 1030-1033, 1035-1043, 1045, 1053-1071, 1051-1071, 1048-1052, 1047-1071, 886-1073; ops/engine.py: 592; base.py: 126-136, 136; variable/base.py: 2397-2399, 932-943, 819, 2634-2645; util/helpers.py: 699-712 |
| `Model/Between.lean` (9 definitions) | variable/base.py: 1167-1177, 1185-1188, 1192-1200, 1190-1217, 1230, 1179-1217, 1150-1237 |
| `Model/Broadcast.lean` (18 definitions) | util/helpers.py: 703-710, 692-712, 715-785; util/broadcaster.py: 30-33, 13-19, 8-34, 47-77, 37-44; helpers.py: 741-745, 748-754 |
| `Model/CalcEngine.lean` (19 definitions) | calc/engine.py; calc/base.py: 313-318, 363-401, 703-738, 754-759; engine.py: 22-28, 93-112, 93-133, 146-148, 77-158, 65-72, 75-158, 48-159; variable/base.py: 1860-1864; ops/engine.py: 46, 126-138 |
| `Model/CalcParm.lean` (32 definitions) | ops/parms/definition.py: 118-297; ops/parms/base.py; calc/library/register.py; calc/base.py: 589-662, 351-358, 613-644, 653-657, 651-671, 646-672; register.py: 11-24, 29-31, 22-23; definition.py: 206-227, 260-263, 257-263, 254-265, 252-276, 235-240, 157-250, 289-295, 278-295; base.py: 130-142, 262, 300-305, 15-30, 62-93 |
| `Model/CellCalc.lean` (32 definitions) | calc/base.py: 410-425, 427-439, 536-541, 538-542, 849-859, 723-727, 525-560, 846-857, 834-859, 914-923, 822-827, 817-870, 864-866, 730, 703-738; variable/base.py: 1055-1064, 932-943, 765-823; calc/library/index/heat_index.py: 26-29, 17-36; eval_function.py: 69-75; base.py: 174-179; calc/eval_function.py: 37-77; calc/library/math.py: 7-16 |
| `Model/CfMeta.lean` (22 definitions) | driver/nc.py: 743-800, 280-445; driver/dimension_map.py: 576-589; nc.py: 287, 377, 766-767, 764-771, 773-778, 782-790, 743-800, 317-330, 306-332, 388-396, 282-304, 373-399, 296-302, 401-422, 425-445; constants.py: 436-454; util/helpers.py: 182-192; dimension_map.py: 576-589, 509-527, 555 |
| `Model/Chunk.lean` (5 definitions) | vmachine/mpi.py: 395-400, 566-567, 564-569, 603-620 |
| `Model/ChunkFlow.lean` (28 definitions) | spatial/grid_chunker.py; spatial/grid.py: 816-821, 854-878, 888-924; constants.py: 121, 512; spatial/base.py: 473-480; grid_chunker.py: 106-145, 257-261, 178-212, 931-933, 533-689, 781-818, 715-763, 697-820, 301-392, 697-820, 769-779, 769-779, 811-816 |
| `Model/CliHistory.lean` (14 definitions) | ocli.py: 248-266, 39-100, 250-256, 249-256, 264-265 |
| `Model/Collection.lean` (26 definitions) | variable/dimension.py: 266-293; variable/base.py: 1826-1843, 1873-1874, 1861-1865, 1875-1877, 1866-1877, 2172-2192, 2214-2219, 2194-2224, 2238-2242, 2226-2242, 1893-1897, 1879-1899, 1970-1998, 156-165 |
| `Model/Collective.lean` (22 definitions) | constants.py; util/helpers.py: 106-147, 1061-1076, 1036-1116; variable/base.py: 1097-1102, 1066-1106; variable/dimension.py: 470-481, 452-492 |
| `Model/Comm.lean` (15 definitions) | (Python and numpy primitives) |
| `Model/Conform.lean` (20 definitions) | variable/base.py: 883-917, 765-823, 932-943, 1590-1597, 386-392, 714-736, 1590-1591, 773-823, 910-914, 916-917, 1052-1053, 2509-2540, 900-917, 1454-1456; variable/temporal.py: 125-136, 701-711, 125-136, 701-702; driver/base.py: 625-643; driver/nc.py: 590-602; driver/vector.py: 34-59, 191-198; util/units.py: 60-70 |
| `Model/CoordTransform.lean` (29 definitions) | spatial/base.py: 144-163, 567-609; variable/geom.py: 1131-1181; collection/field.py: 1014-1029; variable/crs.py: 671-833, 1151-1168; crs.py: 576-582, 564-566, 661, 816, 568-570, 660, 817, 702-713, 693-700, 671-715, 357-376, 230-232, 747-787, 747, 830-833, 1151-1168, 663-669, 717-745, 717-725, 825-828, 522-544; constants.py: 497, 498; base.py: 585-607, 144-163, 567-605, 567-609; geom.py: 1131-1181; field.py: 1014-1029, 337-344 |
| `Model/Coords.lean` (28 definitions) | util/helpers.py: 238-241, 224-258, 195-221, 313-332, 615-620, 596-621; spatial/wrap.py: 54-72, 74-82, 20-28, 222-240, 255-276; spatial/grid.py: 769-774, 1375-1384, 1351-1384, 750-792, 765-781, 1287-1348 |
| `Model/CrsCreate.lean` (22 definitions) | variable/crs.py: 153-177, 472-520, 800-808, 512-520, 800, 861, 865, 864-870, 803-808, 485-488, 490-499, 472-520, 174-176, 153-177, 1194-1204, 1180-1205 |
| `Model/CrsMeta.lean` (56 definitions) | driver/nc.py: 700-740, 476-509; variable/crs.py: 885-1180, 593-630; driver/base.py: 262-284; collection/field.py: 797-815; spatial/base.py: 567-609; crs.py: 1031-1180, 957-962, 1140, 1074-1078, 1085-1090, 1102-1107, 1119-1124, 1137, 1091-1092, 1111-1113, 1128-1130, 944-955, 917-926, 800-804, 1031-1040, 898-928, 966-972, 974-992, 1005-1014, 1095-1097, 964-1016, 1042-1052, 1053-1066, 439-445, 431-455, 521-539, 676-679, 846-849, 138-141, 143-151, 124-127, 110-151, 129-135, 1024-1027, 557-562, 870-872, 593-630, 1020-1028; nc.py: 708, 708-714, 704-714, 700-740, 350, 196-228, 476-509, 381-398; base.py: 142-150, 262-284, 567-609; field.py: 797-815 |
| `Model/CsvRead.lean` (19 definitions) | driver/csv_.py: 20-55, 54, 50-53, 42-55, 35-38, 29-38, 20-39, 57-76; driver/base.py: 333-375, 596-623, 184-230, 879-881, 184-230, 359-375, 596-623; vmachine/mpi.py: 294-354; variable/base.py: 765-823, 1055-1064, 1305-1312, 1689-1698, 1305-1312, 1689-1698, 322-334, 1759-1793, 156-165; variable/dimension.py: 72-97, 367-395 |
| `Model/CsvShp.lean` (12 definitions) | conv/csv_.py: 62-129, 21-51, 27-49, 91-129, 27-51; collection/field.py: 785-793; variable/base.py: 1066-1106; conv/base.py: 161-206 |
| `Model/DailyPerc.lean` (27 definitions) | calc/library/statistics.py; statistics.py: 290-301, 302-316, 266-318, 320-338, 226, 256-259, 261-262, 246-264, 220-221, 222-238, 185-244, 210, 258, 153, 166, 167-168, 155-171, 169-170, 173-183, 363-371; variable/temporal.py: 628-632 |
| `Model/DatasetUid.lean` (10 definitions) | ops/parms/definition.py: 464-498, 475-487, 488-496, 474-498, 474; conv/base.py: 294-330, 302-330; driver/request/multi_request.py: 55-61,96-117; driver/request/core.py: 200; driver/base.py: 45-46; base.py: 23-25; collection/field.py: 239-246 |
| `Model/DictSlice.lean` (19 definitions) | variable/base.py: 2417-2426, 2402-2403, 328-334, 52-67, 176-186, 322-334, 1778-1790, 1775-1776, 1759-1793 |
| `Model/DimMap.lean` (54 definitions) | driver/dimension_map.py; constants.py: 224-275, 255-275, 274, 547-571; dimension_map.py: 24, 598-602, 591-602, 283-301, 155-162, 176-191, 132-139, 164-174, 240-248, 511-524, 507-527, 508-509, 539-555, 556-559, 471-559, 389-400, 402-410, 412-416, 193-204, 441-469, 43-57, 76-86, 70-86, 59-90, 87-89, 617-648, 421-429, 92-114, 110-112, 267-268, 250-281 |
| `Model/Dimension.lean` (21 definitions) | variable/dimension.py: 505-512, 19-67, 99-106, 160-164, 132-136, 227-243, 367-395, 249-264, 515-547, 406-444, 72-97, 405-449, 307-332, 334-364; util/helpers.py: 628, 624-633, 435-490 |
| `Model/Dist.lean` (7 definitions) | vmachine/mpi.py: 294-354, 310-352, 142-154, 258-268 |
| `Model/DistRegistry.lean` (17 definitions) | vmachine/mpi.py: 142-292, 356-373, 142-154, 572-573, 356-373, 162-172, 156-172, 206-212, 178-212, 245-252, 270-282, 218-231, 258-268 |
| `Model/Engine.lean` (26 definitions) | ops/engine.py; constants.py; engine.py: 63-67, 61-68, 53-72, 413-436, 474-515, 336-341, 648-664, 571-674, 350-372, 118-140, 338-382, 301-382, 233-246, 275-279, 156-293, 74-150, 305-306, 346; vmachine/core.py: 131-134 |
| `Model/Env.lean` (21 definitions) | environment.py: 54-275, 55-97, 205-212, 212, 219-231, 220-222, 217-232, 56-97, 137-141, 120-126, 128-135, 99-100, 55-110 |
| `Model/EsmfConvert.lean` (36 definitions) | regrid/base.py: 245-252, 231-234, 229-236, 222-239, 260, 260-271, 413-419, 419, 402, 268-269, 193-273, 297-300, 302-308, 280-313, 375-377, 406-410, 335-439, 142-153, 154-160, 135-137, 166-177, 122-190; conv/esmpy.py: 19, 47-58, 28-45; collection/field.py: 879-882; spatial/grid.py: 1287-1345, 1282-1284; variable/base.py: 1860-1877; driver/base.py: 722-725; constants.py: 197; spatial/base.py: 441-449; collection/spatial.py: 169-180 |
| `Model/EvalString.lean` (24 definitions) | calc/eval_function.py: 79-162; eval_function.py: 124, 134-135, 93-94, 126, 153-156, 152-161, 148-161, 144-145, 106-162, 42-46, 79-104; constants.py: 132 |
| `Model/ExtentGlobal.lean` (12 definitions) | spatial/base.py: 132-141,728-747, 734-742, 728-747; spatial/grid.py: 854-878, 858-871, 873-878; spatial/geomc.py: 679-682 |
| `Model/Extract.lean` (12 definitions) | variable/base.py: 1908-1922, 448-456, 1139-1142, 1119-1121, 1127-1128, 1126, 1129-1134, 1136-1148, 1108-1148; base.py: 126-136; spatial/grid.py: 456-458, 446-468; spatial/base.py: 41-43, 675-682, 549-565; driver/dimension_map.py: 164-174 |
| `Model/Extrapolate.lean` (26 definitions) | util/helpers.py: 524-544, 383-384, 368-375, 386-393, 395-402, 404-411, 368-413, 224-258, 195-221, 346-413; variable/base.py: 958-968, 1450-1453, 945-974; spatial/grid.py: 794-804; ops/engine.py: 552-559 |
| `Model/FieldCoords.lean` (40 definitions) | collection/field.py; constants.py: 224-275; variable/base.py: 255-372, 1463-1469, 1454-1456, 1429-1469, 1850-1877, 2215-2219, 2194-2224, 1879-1899, 1986-1996, 156-165; driver/dimension_map.py: 554-557, 345-350, 512-524, 532-535, 503-557, 164-174; field.py: 1076-1093, 262-271, 248-320, 1124-1129, 1121-1136, 362-375, 224-237, 117-125, 216-222, 797-815; variable/temporal.py: 46-53, 173-194; variable/crs.py: 88-89 |
| `Model/FieldIter.lean` (31 definitions) | collection/field.py: 636-750, 647-655; variable/base.py: 2053-2138, 1638-1649, 1314-1363, 1638-1649, 2115-2122, 2123-2125, 2114-2130, 2110-2113, 2109-2138, 2097-2138; driver/base.py: 883-908, 892-908, 883-890, 668-670; variable/temporal.py: 273-281; variable/geom.py: 766-777; field.py: 686-688, 686-708, 674-684, 1143-1146, 718-736, 743-750, 738-741; variable/iterator.py: 229-243, 36-44 |
| `Model/FieldSlice.lean` (28 definitions) | collection/field.py: 561-604, 1096-1118, 1098-1103, 1106-1116, 1108-1116, 586-594, 582-599, 582-601; base.py: 316-328, 289-292, 286-294, 308-311, 321-326, 320-326, 319-328; driver/dimension_map.py: 176-191, 283-294; variable/base.py: 1262-1283, 1249-1254, 1261-1283, 1239-1288; variable/dimension.py: 307-316 |
| `Model/FileScope.lean` (25 definitions) | driver/base.py: 943-976, 947-962, 853-859, 134-140, 803-807, 964-970, 972-976, 824-830; driver/nc.py: 256-264, 273-275, 247-277, 234-242, 186-204, 192-205; driver/vector.py: 200-214, 162-168 |
| `Model/FreezeFrame.lean` (6 definitions) | calc/library/index/freeze_thaw.py: 18-49; freeze_thaw.py: 41-45, 29-37, 46, 40-46, 18-49 |
| `Model/GeomArg.lean` (23 definitions) | ops/parms/definition.py: 607-801; ops/core.py: 145-153; core.py: 318-322, 145-153, 184, 203-216; spatial/geom_cabinet.py: 328-341; definition.py: 692-699, 737-746, 701, 688-690, 705-707, 751-777, 703, 676-778, 670-673, 780-789; field.py: 388-536; ops/parms/base.py: 26-28 |
| `Model/GeomCabinet.lean` (22 definitions) | spatial/geom_cabinet.py; geom_cabinet.py: 328-341, 215-275, 139-147, 152, 123-152, 119-152, 380-413, 155-177, 98-192, 179-181, 111-117, 354-377, 59-69, 81-96, 194-212; environment.py: 81 |
| `Model/GeomPrep.lean` (37 definitions) | variable/geom.py: 40-49, 65-88, 53, 116, 494, 92-98, 106-114, 90-116, 1348-1352, 1369-1375, 1383-1386, 1361-1386, 1392-1396, 1355-1398, 508, 1449-1458, 1465-1470, 1448-1470, 1460-1472, 1438-1481, 1477-1480, 1486-1487, 1484-1490, 392-405, 479-485, 486-503, 505-515, 476-515, 1325-1335, 525-531, 470-556, 410-582, 621-636; util/helpers.py: 547-569 |
| `Model/GeomSelect.lean` (41 definitions) | spatial/index.py: 18-32, 86-87, 34-70; variable/geom.py: 1411-1412, 1427-1432, 1401-1435, 1244-1254, 1256-1262, 1271-1274, 1264-1283, 1288-1294, 699-705, 679-716, 761-763, 718-764, 813-814, 803-821, 646-677, 177-185; variable/base.py: 1036-1047; util/helpers.py: 861-902, 862-870; spatial/spatial_subset.py: 116-138; spatial/grid.py: 599-724, 639-653; spatial/base.py: 251-260 |
| `Model/GeomWrap.lean` (44 definitions) | spatial/wrap.py; variable/crs.py; variable/geom.py: 1106-1120; spatial/spatial_subset.py: 246-256; util/helpers.py: 1231-1240; wrap.py: 90-98, 189-192, 278-288, 194-200, 137-140, 188-201, 134-140, 142-148, 212, 214-219, 166-173, 203-222, 225-239, 255-276, 181-243, 245-253, 126-161, 116-164, 112-177, 100-179; constants.py: 207-220; crs.py: 330, 357-376, 389-402, 378-404, 249-259, 261-274, 179-215, 336-342, 323-355, 276-307; spatial/base.py: 69-106; spatial/grid.py: 589-597; spatial/geomc.py: 508-516 |
| `Model/Geomc.lean` (33 definitions) | spatial/geomc.py; variable/geom.py: 535-547, 532-548, 549-556, 532-556, 519-523, 517-556, 470-561, 458-561; geomc.py: 857, 858-865, 848-865, 749-753, 754, 755, 369, 744-760, 379, 757-759, 378-379, 384-387, 375-410, 369-415, 304-415; util/helpers.py: 1318-1348; driver/nc_esmf_unstruct.py; nc_esmf_unstruct.py: 139-148, 116-119, 127, 128-135, 126-135, 112-151 |
| `Model/GridCells.lean` (30 definitions) | spatial/grid.py: 477-491, 526-530, 1181-1202, 31-100, 118-136, 816-827, 240-264, 266-289, 349-362, 334-341, 128-131, 816-821, 823-827, 59-65, 79-81, 85-94, 55-66, 75-82, 87-95, 43-100, 1192-1195, 1181-1202, 526-527, 529-530, 477-491, 285-289; variable/base.py: 339-370 |
| `Model/GridChunk.lean` (20 definitions) | spatial/grid_chunker.py; driver/nc.py: 517-519, 516-525, 466-473, 455-473; vmachine/mpi.py: 294; spatial/grid.py: 884-886; grid_chunker.py: 919-923, 896-923, 889-928, 331-343, 378-390, 370-391, 301-392, 449-456, 431-445, 425-448 |
| `Model/GridMask.lean` (28 definitions) | driver/base.py: 480-535, 694-731, 751-762, 514-520, 504-535, 709-728, 709-731, 625-630, 719-728, 529-533; spatial/base.py: 365-370, 441-448, 685-701, 441-448; spatial/grid.py: 1282-1284; driver/nc_scrip.py: 62-79; constants.py: 197; variable/base.py: 1012-1024, 2256-2266, 1675-1698, 1651-1673; driver/nc_esmf_unstruct.py: 48-50, 66-68 |
| `Model/GroupStack.lean` (27 definitions) | variable/base.py: 2003-2051, 2014-2018, 2031-2037, 2044, 2041-2045, 2194-2224, 1826-1843, 1873-1874, 1850-1877, 2038-2039, 2028-2047 |
| `Model/Groups.lean` (13 definitions) | util/helpers.py: 1277-1315; driver/base.py: 1065-1080, 1077, 1076-1080, 1065-1073, 1065-1069; helpers.py: 1301-1308, 1277, 1278-1289, 1293-1308, 1277-1309, 1297-1306 |
| `Model/Interp.lean` (16 definitions) | ops/interpreter.py: 61-150; interpreter.py: 97-133, 72-95 |
| `Model/Justify.lean` (7 definitions) | util/justify.py: 1-30, 14-20, 11-28 |
| `Model/Masks.lean` (21 definitions) | variable/base.py: 1039-1046, 1036-1037, 1026-1053, 1675-1687, 765-823, 1651-1673, 2429-2434, 2531-2540, 2509-2541, 2253-2266, 2244-2266; driver/base.py: 625-630; util/large_array.py: 228-248 |
| `Model/MeshFile.lean` (29 definitions) | driver/nc_ugrid.py; driver/nc_esmf_unstruct.py; variable/attributes.py: 44-47; nc_ugrid.py: 55-63, 26-29, 35-38, 20-29, 31-41, 18-65, 119-132, 156, 155-156, 135-158, 72-76, 67-92, 94-117; constants.py: 202; driver/base.py: 219-221; nc_esmf_unstruct.py: 48, 98-203, 41-46, 21-52, 85-92, 76-95; dimension_map.py: 309-315, 302-326; geomc.py: 151-156 |
| `Model/MeshReduce.lean` (11 definitions) | spatial/geomc.py; geomc.py: 47-111, 151-156, 652-653, 234-251, 304-415, 904-907, 986, 113-120, 140-156, 662-664, 642-674, 914, 934, 659; variable/geom.py: 568-576; driver/base.py: 916; driver/nc_esmf_unstruct.py: 18, 155-157, 172-177 |
| `Model/MetaOverride.lean` (9 definitions) | ops/parms/definition_helpers.py: 1-35, 24-35, 16-19; ops/parms/definition.py: 241-248; calc/base.py: 394-396, 395-396 |
| `Model/Mpi.lean` (7 definitions) | vmachine/mpi.py: 500-522, 502, 469-524, 456-524, 411-445, 403-408, 550-561 |
| `Model/NcCollect.lean` (7 definitions) | driver/nc.py: 540-562, 555, 551-557, 559-561; driver/request/core.py: 390-394, 391-394 |
| `Model/NcOpen.lean` (28 definitions) | driver/nc.py: 528-537, 803-812, 821-882, 565-588, 590-602, 533-537, 868-874, 843-853, 830-874, 821-882, 528-537, 574-598; driver/base.py: 441-459, 164-182, 333-375, 596-623, 1056-1062, 350-357, 446-459, 174-181, 350-354, 608, 369-374, 1056-1062, 604-618, 350-352, 333-357, 252; util/helpers.py: 1277-1309; variable/base.py: 88-106, 458-481, 95-105, 479-480; variable/dimension.py: 367-389; vmachine/mpi.py: 245-252; base.py: 74-78 |
| `Model/NcWrite.lean` (33 definitions) | driver/nc.py: 58-226, 648-656, 688-697; driver/base.py: 774-800, 824-830, 824-830, 774-800; nc.py: 648-656, 142, 688-697, 105-119, 122-134, 142-170, 59-176, 203-223, 196-226; variable/base.py: 577-588, 2451-2457; base.py: 251-258 |
| `Model/OcgLogging.lean` (17 definitions) | util/logging_ocgis.py: 54-192, 55-62, 55-64, 108-109, 108-118, 166-172, 66, 83, 103, 68-70, 97-98, 150-156, 78-84, 66-106 |
| `Model/Ops.lean` (57 definitions) | ops/core.py; conv/base.py: 263-291; variable/crs.py: 522-541, 872-880; calc/base.py: 342-348, 762-767, 873-912, 892-901; calc/library/statistics.py: 78-83; calc/library/index/duration.py: 91-95, 131-133; ops/parms/definition.py: 159-166; driver/base.py: 737-748; core.py: 331-334, 336-338, 340-347, 349-353, 355-360, 364, 365-368, 369-374, 376-385, 387-394, 396-398, 400-405, 415-416, 407-416, 324-416, 209-211, 205-216, 120-185, 205-213, 197-203; conv/nc.py: 76-81, 57-110; conv/esmpy.py: 28-45; conv/fiona_.py: 70-88; conv/meta.py: 46-57; definition.py: 157-166, 1077-1096, 956, 958-972, 1159-1167, 1159-1188, 1144-1157; base.py: 262, 62-93, 236-239, 254-297; ops/parms/base.py: 62-93 |
| `Model/Parms.lean` (41 definitions) | ops/parms/base.py; ops/parms/definition.py; ops/query.py; definition.py: 588-590, 958-972, 588-590, 427-434, 820-828, 860-877, 1281-1293, 1266-1272, 1257-1293, 326-332, 322-345, 357-381, 347-349, 296-381, 1135-1188, 1327-1331, 1310-1322, 1296-1332, 934-950, 1077-1078, 1023-1025, 524-527, 529, 535-539, 524-532, 520-542; base.py: 134-145, 147-156, 204-211, 177-211, 225-239, 301-306, 284-295, 255-299, 284-299, 62-93, 107-114; conv/base.py: 263-291; query.py: 35, 35-41, 24-43 |
| `Model/RecordIter.lean` (35 definitions) | variable/iterator.py: 10-243; variable/base.py: 1314-1363, 1636-1649; iterator.py: 24-29, 13-68, 219-226, 74-78, 80-95, 13-102, 143-144, 202-209, 152-153, 158-161, 155-163, 141-165, 174-178, 170-178, 181-183, 184-191, 179-193, 104-196; base.py: 1337-1345, 1330-1346, 1347-1351, 1314-1363 |
| `Model/Records.lean` (28 definitions) | collection/field.py: 388-536; ops/parms/definition.py: 678-690; driver/vector.py: 331-375; field.py: 526, 521-529, 499-529, 500-508, 509-518, 462, 460-465, 475, 422-424, 441-445, 468-474, 516-517; driver/nc.py: 105-109, 155-163; definition.py: 681-685, 686-689, 679-690 |
| `Model/Redistribute.lean` (27 definitions) | vmachine/mpi.py: 635-723, 726-753, 681-685, 674-688, 694-696, 667-671, 701-723, 662, 899-913, 737-738, 828-925, 749-751; variable/base.py: 591-606, 1625, 746-759, 1305-1312, 1689-1698, 1901-1906, 925-928, 1770-1792; driver/nc.py: 659-685 |
| `Model/Regrid.lean` (49 definitions) | regrid/base.py: 460-468, 442-500, 353, 397-404, 405-410, 379-393, 412-437, 335-439, 601-643, 553-560, 544-547, 577-597, 759, 787-788, 791-794, 739-743, 791-798, 709-825, 646-839, 690-692, 591, 597, 828-829, 55-119; constants.py: 121; driver/nc.py: 362, 354-371; spatial/grid.py: 834-852, 726-736, 1312-1325; spatial/base.py: 482-489 |
| `Model/RegridDest.lean` (9 definitions) | ops/parms/definition.py: 1015-1066; ops/parms/base.py: 70-75, 134-145, 167-168, 70-75, 134-145, 62-93; ops/engine.py: 362; definition.py: 1039-1041, 1051-1054, 1036-1054, 1034-1066 |
| `Model/Reindex.lean` (16 definitions) | spatial/geomc.py: 868-1118, 934, 1070, 902-936, 1069-1070, 933-936, 942-959, 962-964; geomc.py: 996, 1069, 1117 |
| `Model/RequestMeta.lean` (29 definitions) | driver/request/core.py: 142-474, 570-648; driver/registry.py: 30-58; driver/base.py: 313-325, 346-385; core.py: 459-474, 364-371, 390-394, 429-434, 437-448, 557, 560-567, 265-279, 142-236, 382-387, 333-347, 579-584, 570-605, 608-609, 626-634, 612-648; base.py: 352-385, 313-324; variable/base.py: 296, 1879-1899; registry.py: 18-27, 30-58; constants.py: 389-397; csv_.py: 15; nc.py: 39; vector.py: 29 |
| `Model/RequestSize.lean` (11 definitions) | ops/core.py: 218-289, 262-264, 279-281, 283-287, 258-289; collection/spatial.py: 169-180; variable/base.py: 673-685 |
| `Model/RwgCommand.lean` (31 definitions) | ocli.py: 98-245, 148, 241, 322-327, 40-97, 308-313, 133, 133-156, 162-173, 197-201, 25-31, 190-201, 205-220, 222-234, 236-242, 158-245; spatial/grid_chunker.py: 721-760, 697-820, 218-228, 822-887, 301-355; constants.py: 513-516, 516 |
| `Model/ScatterGather.lean` (7 definitions) | vmachine/mpi.py: 756-925, 885-913, 799-800, 802-805, 793-808, 756-825 |
| `Model/Scopes.lean` (33 definitions) | variable/base.py: 2406-2414; base.py: 267-270, 261-274, 288-295, 287-295, 296-302, 287-307, 312-313, 308-313, 277-313, 182-193, 39-117, 97-117, 79-85, 50-56, 67-78; spatial/grid.py: 118-131 |
| `Model/ScripChunk.lean` (7 definitions) | driver/nc_scrip.py: 98-125, 110-115, 122-125, 99-125, 99; spatial/grid_chunker.py: 461-472, 472; spatial/base.py: 616-617 |
| `Model/SeasonLabel.lean` (7 definitions) | calc/temporal_groups.py: 12-36, 15, 13-14, 27-28, 22-31, 32, 33-34, 20-35 |
| `Model/Seasons.lean` (14 definitions) | variable/temporal.py: 1037-1039, 1041-1044, 1046-1060, 1031-1064, 1015-1068, 1072-1077, 1078-1079, 1008-1081, 1103-1106, 1100-1116, 1082-1128, 661-692 |
| `Model/Series.lean` (29 definitions) | calc/library/statistics.py: 12-135; statistics.py: 106-119, 120-131, 55-62, 68-69, 22-77; calc/library/index/duration.py; duration.py: 73-76, 70-87, 37-47, 133-153; calc/library/index/freeze_thaw.py: 52-110; freeze_thaw.py: 93-98, 88-106, 52-110; calc/library/math.py: 48-109; math.py: 57-104; calc/library/thresholds.py; thresholds.py: 36-57, 14-24 |
| `Model/ShpProcess.lean` (17 definitions) | util/shp_process.py: 11-104, 66-84, 41, 42-46, 50-54, 47-55, 29-37, 21-60, 87-104 |
| `Model/SourceRead.lean` (12 definitions) | variable/base.py: 1600-1698, 746-759, 1305-1312, 1689-1698, 1675-1687, 1775-1776, 52-67, 176-186, 322-334, 1767-1793, 765-823, 761-763; driver/nc.py: 620-686, 661-676, 677, 659-685 |
| `Model/SpatialColl.lean` (13 definitions) | collection/spatial.py: 98-167; variable/base.py: 1812-1824; spatial.py: 110-121, 98-122, 158-167, 135-149, 124-156 |
| `Model/SpatialSelect.lean` (17 definitions) | spatial/grid.py: 646, 1254-1267, 644-655, 43-83, 636-690, 1240-1252; driver/nc.py: 354-372; spatial/base.py: 451-470, 714-725, 704-711, 785-791, 750-792; variable/geom.py: 154-185 |
| `Model/SpatialSubset.lean` (23 definitions) | spatial/spatial_subset.py; variable/crs.py; spatial/wrap.py: 54-72; variable/base.py: 322-334; spatial_subset.py: 29-39, 105-109, 114-155, 90-101, 264-277, 116-148, 258-262, 157-159, 161-163, 165-167, 53-175; spatial/base.py: 567-606; crs.py: 357-376, 323-349 |
| `Model/Stack.lean` (10 definitions) | variable/base.py: 357-370, 2613-2627, 2584-2589, 2544-2631 |
| `Model/Tabular.lean` (30 definitions) | driver/csv_.py: 57-76; driver/vector.py: 216-271; driver/base.py: 774-800, 825-830, 799-800; conv/base.py: 161-206, 173-196; conv/csv_.py: 20-49; conv/fiona_.py: 25-62; vector.py: 250-254, 263-271, 216-271, 256-261, 266-270, 274-282, 241-244; constants.py: 282-288; csv_.py: 69-76, 57-76, 65-68, 71-75, 63 |
| `Model/TemplateTime.lean` (5 definitions) | variable/temporal.py: 824-844, 836-843 |
| `Model/Temporal.lean` (28 definitions) | variable/temporal.py: 508, 497-498, 812-820, 783-821, 893-898, 875-905, 862-915, 934-951, 508-519, 526-527, 507-532, 999-1001, 981-1005, 918-931, 410-430, 380-445, 417-423; util/helpers.py: 493-521 |
| `Model/Text.lean` (11 definitions) | util/helpers.py: 69-87 |
| `Model/Tile.lean` (16 definitions) | calc/tile.py: 8-13, 23-32, 6-20; util/large_array.py: 15-225; large_array.py: 203-206, 228-248, 176-208, 81-223 |
| `Model/TimeGroup.lean` (31 definitions) | variable/temporal.py: 227-271, 479-495, 589, 590, 589-590, 30, 475, 523, 603-642, 847-859, 507-535, 573-597, 560-567, 543-559, 645-658, 537-597, 394-434, 1099-1116, 683-688, 661-692, 1082-1128, 447-465, 239-247, 250-261, 118 |
| `Model/TimeSubset.lean` (10 definitions) | util/helpers.py: 1178-1185, 1150-1156, 1158-1163, 1126-1202 |
| `Model/Units.lean` (7 definitions) | util/units.py; units.py: 25-29, 20-29, 12-16, 6-17, 32-57 |
| `Model/UnstructSelect.lean` (24 definitions) | spatial/grid.py: 1089-1097, 1078-1101, 1085-1087; spatial/geomc.py: 829, 841, 832-842, 818-845, 544-551, 543-556, 562-564, 531-566, 363-370, 353-373, 582-585, 576-587, 577-594, 595-601, 503-633; variable/geom.py: 177-185 |
| `Model/UriSort.lean` (5 definitions) | util/helpers.py: 666-689, 686, 683-686, 687, 688 |
| `Model/VarResolution.lean` (11 definitions) | variable/base.py: 643-663, 653-663; variable/temporal.py: 317-341, 317-335; constants.py: 121 |
| `Model/VarShape.lean` (49 definitions) | variable/base.py: 437-446, 448-456, 2437-2448, 2338-2355, 2646-2648, 2634-2648, 1838-1843, 470-478, 467-484, 458-493, 1050-1053, 2509-2541, 1026-1053, 765-823, 746-759, 1305-1312, 761-763, 1055-1064, 1012-1024, 1405-1427, 129-133, 1593-1594, 267-320, 1873-1874, 1860-1864, 1875-1877, 1429-1461; variable/dimension.py: 44-67, 99-106, 44-67, 367-389 |
| `Model/VectorRead.lean` (33 definitions) | driver/vector.py; variable/base.py: 1623-1625, 765-823, 1689-1698, 1305-1312, 1689-1698, 1651-1687, 322-334, 1767-1793, 761-823, 1026-1053; constants.py: 201, 142; vector.py: 108-121, 133, 140-147, 135-151, 131-151, 108-159, 124-127, 154, 154, 40-41, 154-157, 34-41, 285-294, 180-183, 331-375, 311-318 |
| `Model/Vm.lean` (20 definitions) | vmachine/core.py: 11-244; vmachine/mpi.py: 31-128; core.py: 19-32, 40-46, 178-182, 114-117, 108-129, 136-143, 198-199, 96-97, 226-234; mpi.py: 34, 71-97, 109-128, 42-69 |
| `Model/ZipReturn.lean` (7 definitions) | util/zipper.py: 30-96, 40-50, 59-96 |
<!-- END -->

### Axioms

<!-- AXIOMS -->
Output of `#print axioms` for every theorem in the manifest (1154 theorems).

* **none** (26): C12_serial_collectives, C25_converts_counterexample, C31_nothing_to_check, C31_empty_region, C53_topology_counterexample, C58_alternating_counterexample, C58_held_counterexample, C58_lookup_counterexample, C71_attribute_error_counterexample, C71_constructor_only_counterexample, C73_same_key_counterexample, C80_user_bounds_counterexample, C81_driver_key_partial, C81_unknown_driver_counterexample, C81_directory_counterexample, C84_operation_counterexample, C87_buffer_partial, C89_crs_partial, C89_crs_counterexample, C93_action, C108_source, C108_clean_counterexample, C108_bounds_lost_counterexample, C109_predicate_counterexample, C110_scrip_none_never, C129_nothing
* **Quot.sound** (1): C98_groups_counterexample
* **propext** (201): C02_update_dimension_bounds_counterexample, C02_minimum_refused, C03_lost_element_counterexample, C03_dgather, C04_none_rejected, C05_negative_slice_counterexample, C06_ugid_empty_counterexample, C08_empty_counterexample, C13_open_slice_counterexample, C13_negative_array_counterexample, C13_negative_int_counterexample, C14_minus_one_counterexample, C14_descending_counterexample, C15_order_counterexample, C15_empty_rejected, C16_swap_means, C16_scope_dropping_counterexample, C22_expand, C27_counterexample, C29_cells_counterexample, C34_same_dimensions_counterexample, C34_no_mask, C35_dimension_order_counterexample, C35_broadcast_counterexample, C36_refused_partial, C37_counterexample, C39_added_variable_counterexample, C39_swap_counterexample, C39_abstraction, C39_automatic_abstraction_counterexample, C40_source_name, C40_aliases_counterexample, C42_flag_restored, C43_refused, C43_wrong_shape_counterexample, C44_masked_counterexample, C45_summary, C45_std_counterexample, C49_refused, C51_join_then_split, C52_esmf_counterexample, C53_unset, C53_set_bounds, C53_failed_set, C53_scalars, C53_attrs_counterexample, C53_section_counterexample, C53_bounds_error_counterexample, C53_dict_counterexample, C53_group_counterexample, C54_melted_repeaters_counterexample, C54_melted_alone_counterexample, C54_stale_order_counterexample, C54_mixed_masking_counterexample, C54_reuse_counterexample, C54_get_iter_counterexample, C57_fallback_counterexample, C59_refused, C59_rotated_counterexample, C62_length_one_counterexample, C62_empty_chunks_counterexample, C63_multipart_start_index_counterexample, C64_start_index_counterexample, C65_nested_counterexample, C66_other_rank_counterexample, C66_overwrite_counterexample, C66_ranks_wait_counterexample, C68_rotated_pole_counterexample, C68_allow_empty_counterexample, C68_raw_counterexample, C69_disjoint_counterexample, C71_sticky_crs_counterexample, C71_mixed_calculations_counterexample, C71_second_use_counterexample, C71_geojson_multivariate_counterexample, C71_error_kind_counterexample, C71_constructor_alike_partial, C74_stale_counterexample, C74_iterator_counterexample, C74_shared_counterexample, C78_set_wins, C78_unordered_counterexample, C78_two_arrays_counterexample, C78_no_source_counterexample, C78_removed_counterexample, C79_file_only, C79_extra_variable_counterexample, C79_fixed_size_counterexample, C80_axes_needed, C80_not_distributed, C80_transposed_counterexample, C80_points_counterexample, C80_forecast_counterexample, C80_scalar_height_counterexample, C80_scalar_counterexample, C81_uri_partial, C81_short_rename_counterexample, C81_given_metadata_counterexample, C81_used_name_counterexample, C82_request, C82_history_partial, C82_radius_counterexample, C82_sphere_counterexample, C82_assigned_counterexample, C82_given_counterexample, C82_history_counterexample, C82_transformed_counterexample, C82_units_counterexample, C82_no_data_counterexample, C84_operation, C85_copy_counterexample, C85_slice_counterexample, C85_cascade_counterexample, C85_attributes_counterexample, C85_siblings_counterexample, C85_member_counterexample, C87_unchecked, C87_clip_slice_counterexample, C88_rank_counterexample, C89_units_counterexample, C89_collection_counterexample, C89_same_name_counterexample, C89_rename_counterexample, C89_rename_data_counterexample, C89_remove_bounds_counterexample, C89_time_bounds_counterexample, C89_time_object_counterexample, C89_is_data_counterexample, C90_box_clip, C90_unsliced, C94_refused, C94_attached_twice, C94_given, C94_first_masked_counterexample, C94_primary_mask_counterexample, C94_melted_variable_counterexample, C94_melted_alone_counterexample, C94_name_counterexample, C94_realization_bounds_counterexample, C94_dataset_counterexample, C94_repeated_counterexample, C94_masked_bounds_counterexample, C94_strict_counterexample, C98_single_counterexample, C98_memory_counterexample, C98_other_variables_counterexample, C98_stale_dimension_counterexample, C98_empty_dimension_counterexample, C98_communicator_counterexample, C98_scalars_counterexample, C99_units, C101_start_attribute_counterexample, C101_esmf_zero_counterexample, C101_parts_counterexample, C101_other_start_counterexample, C101_array_of_arrays_counterexample, C101_slice_flat_counterexample, C102_distributed_partial, C102_points_only_counterexample, C102_third_column_counterexample, C102_one_centre_counterexample, C102_iterated_counterexample, C104_group_counterexample, C104_missing_group_counterexample, C104_replaced_counterexample, C104_parallel_counterexample, C105_no_format, C107_options, C107_existing_directory_counterexample, C107_one_chunk_directory_counterexample, C107_nested_weight_counterexample, C107_above_counterexample, C107_one_chunk_counterexample, C107_defaults_counterexample, C107_subset_overwritten_counterexample, C107_history_added_counterexample, C107_left_directory_counterexample, C107_missing_directory_counterexample, C109_offset_counterexample, C109_wrong_group_counterexample, C110_wrong_shape, C110_scrip_read_never, C110_scrip_set_never, C110_esmf_never, C111_given_mask, C111_empty, C111_polygon_never, C111_one_axis_never, C111_overload_never, C114_target, C115_unchanged_partial, C115_again, C117_empty_never, C120_aggregated, C121_regridded, C125_path, C125_relative_never, C130_groups, C135_warned, C135_warning_never, C135_exception_never
* **Quot.sound, propext** (243): C03_hgather, C11_scope_restores_partial, C11_same_name_counterexample, C11_serial_restores, C11_by_name_restores, C11_barrier_scope, C11_serial_name_remains_counterexample, C17_all_masked, C21_nothing_lost, C21_row_without_negative_counterexample, C22_shape, C23_parts_union, C25_exact_shift, C26_no_empty_group, C28_removal_counterexample, C28_year_gap_counterexample, C28_single_year_counterexample, C30_crossing_counterexample, C31_month_sound_partial, C31_month_after_range_counterexample, C31_first_month_counterexample, C31_middle_month_counterexample, C31_february_counterexample, C31_several_months_partial, C31_months_and_years, C32_refused, C32_indices_counterexample, C33_union, C33_refused, C34_spatial_mask, C35_concatenation_complete, C35_missing_dimension, C36_removal, C37_last_child_decides, C37_uniform_partial, C38_unknown_dimension, C39_renamed_dimensions, C39_inside, C47_single_kernel_counterexample, C48_between, C49_merged_weights, C50_insert_times, C51_multipart_lossless, C51_ragged_lossless, C52_reading_is_pure_partial, C52_partial_iteration_partial, C52_each_element_partial, C53_invalid_key, C53_dict_roundtrip_partial, C53_topology_partial, C54_repeat_record_counterexample, C57_equal, C57_equivalent, C58_acceptance, C58_iteration, C58_firsts, C58_insertion_order_partial, C58_lookup_partial, C58_first_field_partial, C59_success_partial, C59_history_partial, C59_wrap_exact, C61_touching_barrier_partial, C61_vectors_partial, C61_vectors_counterexample, C62_one_chunk, C64_empty_rank_counterexample, C66_directory_partial, C66_existing_refused, C66_nothing_removed, C67_iteration, C67_serial, C67_nested_counterexample, C67_other_scope_counterexample, C68_allow_empty_partial, C69_live_ranks, C69_parallel_partial, C71_last_value, C71_output_crs_partial, C71_order_partial, C71_slice_list, C72_union, C73_union, C73_equal_numbers, C73_combination, C73_union_len, C73_keys, C73_path, C73_both_counterexample, C73_len_counterexample, C73_slice_counterexample, C73_array_counterexample, C73_start_stop_counterexample, C74_metadata_counterexample, C74_numbers_counterexample, C78_protected, C79_ends, C80_data_variables_partial, C80_distributed_partial, C80_mask, C80_user_map_partial, C80_user_map_twice, C85_copy, C86_union_dimensions_counterexample, C86_by_area, C87_mask, C87_index_counterexample, C87_hint_counterexample, C87_nearest_processes_counterexample, C87_buffer_counterexample, C87_touch_partial, C87_touch_counterexample, C87_grid_optimized_counterexample, C87_grid_hint_counterexample, C88_index_partial, C89_last_set_partial, C89_reads_partial, C89_attributes_first, C89_attributes_partial, C89_again, C89_replaced, C89_is_data_partial, C90_line_counterexample, C90_order_counterexample, C90_touch, C90_touch_depth, C90_touch_counterexample, C92_set_partial, C92_orphan, C93_ranks_counterexample, C95_dimensions, C95_order_counterexample, C95_month_bounds_counterexample, C95_incomplete_month_counterexample, C95_day_counterexample, C95_season_bounds_counterexample, C95_year_season_counterexample, C95_winter_counterexample, C95_unique_bounds_counterexample, C95_middle_counterexample, C96_dictionary_counterexample, C96_shared_counterexample, C96_clash_counterexample, C96_own_name_counterexample, C96_listed_counterexample, C96_open_counterexample, C96_last_counterexample, C96_negative_counterexample, C96_first_variable_counterexample, C96_no_data_counterexample, C96_past_end_counterexample, C97_validate, C98_scatter_refused, C99_units_given, C99_unused_counterexample, C99_mask_counterexample, C100_triple_counterexample, C104_parallel_partial, C104_passes, C105_refused, C106_shared_unlimited_counterexample, C106_short_mask_counterexample, C106_refused_dimensions_counterexample, C106_no_dimensions_counterexample, C106_refused_reshape_counterexample, C106_forced_counterexample, C106_bare_mask_counterexample, C106_stale_bounds_mask_counterexample, C106_bounds_dimension_counterexample, C106_dimension, C107_touches, C107_keeps_partial, C107_clean, C107_subset, C107_chunks, C107_refused, C107_direct, C107_one_chunk_never, C107_merge_never, C107_subset_removed_counterexample, C108_clean_bounds_never, C108_tags_counterexample, C110_scrip_partial, C111_abstraction, C111_name_never, C111_assign_mask_never, C111_assign_vector_never, C111_assign_bounds_never, C114_schema, C114_same_never, C114_missing, C114_options_never, C114_folder_never, C115_identifiers_partial, C115_given, C115_unique_partial, C115_counted_partial, C115_clash_never, C115_twice_never, C115_field_twice, C115_changed_never, C115_reused_never, C115_file, C116_lost_never, C116_missing, C116_length_never, C116_first_never, C116_empty, C120_found_partial, C120_clash_never, C120_first_never, C120_all, C120_name_never, C122_again, C122_variable_again, C122_same, C122_lookup_never, C122_ranks_never, C122_empty, C123_alone_partial, C123_empty, C123_order, C123_code_never, C124_rows_partial, C124_endless_never, C124_long_never, C124_word, C124_turns, C128_value_partial, C128_question_partial, C128_unnamed_never, C128_none_never, C128_metadata, C128_agree, C130_variables_partial, C132_recorded_partial, C132_values, C132_again_never, C132_refused_never, C135_raised, C135_history, C135_callback, C135_logged_partial
* **Classical.choice, Quot.sound, propext** (683): C01_rank_bounds_partition, C02_update_dimension_bounds_partial, C02_group_update, C02_whole_update, C02_empty_ranks, C03_scatter_gather_partial, C04_global_to_local, C05_distributed_slice, C06_arange_from_dimension, C06_ugid_global_partial, C06_create_distributed_dimension, C07_nd_slices_tile, C07_slices_concatenate, C07_too_many_splits_rejected, C07_optimal_splits_legal, C08_unique_global_partial, C08_each_value_once_partial, C09_serial, C09_parallel_partial, C10_never_stuck_partial, C10_deadlock_counterexample, C12_serial_delivery, C12_once_and_separate, C13_source_indices_follow_partial, C13_length_follows_partial, C14_formatted_slice_partial, C15_same_selection_iff_partial, C16_swap_chain, C16_swap_chain_mismatch, C16_broadcast_by_names, C16_broadcast_rejects, C16_broadcast_variable, C16_scope_restores_partial, C17_trim, C18_bounds_contiguous, C18_too_short, C18_even_cells, C18_interior_inside, C18_uneven_edge_outside, C19_mesh_round_trip, C19_cells_round_trip, C20_wrap_unwrap, C20_seam, C20_arrays, C20_points, C20_point_axis_ignored, C21_rotation_partial, C21_rotation_vector, C21_increasing, C22_counter_clockwise, C23_nothing_lost_partial, C23_points, C23_even_grid, C23_centred_grid_counterexample, C24_no_gaps, C24_row_major, C24_no_overlap, C24_covers_extent, C24_single_element_counterexample, C25_converts_partial, C25_difference, C25_round_trip, C26_one_group, C26_same_group, C27_ordered, C27_permutation_partial, C28_complete_partial, C29_exact, C29_refused, C29_cells_partial, C30_range_partial, C30_crossing, C31_years_partial, C31_month_accepted_partial, C32_values, C32_bounds, C32_bounds_refused, C33_history, C33_any_order, C34_cascade_partial, C34_collection, C35_stack_partial, C36_history_partial, C36_refused_addition_counterexample, C36_forced_counterexample, C36_rename_onto_counterexample, C36_tags_counterexample, C38_collection_partial, C38_dictionary_of_slice, C38_two_arrays_counterexample, C38_mapped_slice, C39_renamed_on_variables_partial, C40_name_and_aliases_partial, C41_tiles_partition, C42_tiled_equals_whole, C43_groups, C43_per_location, C43_sample_size, C44_valid_partial, C44_same, C44_refused, C45_durations_partial, C45_isolated, C45_isolated_counterexample, C45_frequencies_partial, C46_events, C46_count_partial, C46_no_event, C46_threshold_not_positive, C46_negative_counterexample, C47_valid_partial, C47_long_kernel, C48_threshold, C50_insert, C50_whole_partial, C52_esmf_shift_counterexample, C53_last_set, C53_dict_reachable_partial, C53_set_group_partial, C54_nested_records, C54_records, C54_melted_partial, C54_bounds_iteration, C55_set_partial, C55_unset_partial, C55_import_partial, C55_unknown, C55_format_bool, C55_marker_counterexample, C55_coordsys_counterexample, C55_probed_counterexample, C55_raw_counterexample, C55_failed_reset_counterexample, C56_boolean, C56_option, C56_text, C56_integers, C56_integers_counterexample, C56_time_range, C56_typed, C56_rejection_partial, C56_rejection_counterexample, C56_null_partial, C56_null_counterexample, C56_region, C56_refused_counterexample, C56_taken_counterexample, C56_unknown, C56_query, C56_datasets, C56_datasets_counterexample, C57_by_string, C59_exact_arithmetic, C59_wrap_counterexample, C59_raise_counterexample, C59_rounding_counterexample, C59_below_counterexample, C60_enumeration, C60_lookup, C60_create, C62_chunks_tile_partial, C63_write_then_read_partial, C64_esmf_export_partial, C65_group_maps_partial, C66_serial_partial, C68_independent_partial, C70_rank_order, C70_no_deadlock, C70_records_partial, C70_columns_counterexample, C70_fields_counterexample, C70_geojson_counterexample, C70_truncation_counterexample, C70_empty_rank_counterexample, C71_construct_partial, C71_assign_partial, C71_refused_kept_counterexample, C71_bad_value_partial, C71_error_kind_partial, C71_regrid_options, C72_values_partial, C72_records_partial, C72_numbers, C72_null_counterexample, C72_first_decides_counterexample, C72_identifier_counterexample, C72_string_width_counterexample, C72_dictionaries_partial, C72_dictionary_crs_counterexample, C72_dictionary_identifier_counterexample, C73_select_partial, C73_slice_partial, C73_fields_partial, C73_len_partial, C74_used_partial, C74_accepts_partial, C74_metadata_partial, C75_expression_partial, C75_refused, C75_multivariate, C75_exponent_counterexample, C75_name_counterexample, C75_space_counterexample, C75_argument_counterexample, C75_exec_counterexample, C76_results_partial, C76_clash, C76_text_partial, C76_same_name_counterexample, C76_two_texts_counterexample, C76_text_second_counterexample, C76_daily_counterexample, C76_names_counterexample, C77_registry_partial, C77_override_counterexample, C77_dictionaries_partial, C77_text_partial, C77_repeated_keyword, C77_no_alias, C77_other_key_partial, C77_none, C77_malformed_counterexample, C77_case_counterexample, C77_variable_case_counterexample, C77_error_counterexample, C77_alias_counterexample, C77_unknown_counterexample, C77_parameters_partial, C77_truth_counterexample, C77_value_counterexample, C78_read_exact, C78_bounds_read, C78_deferred_partial, C79_parallel_partial, C79_mask_counterexample, C79_file_only_counterexample, C80_axis, C80_bounds, C80_dimensions_partial, C80_refused, C80_rotated, C80_order, C81_rename_partial, C81_names, C81_no_data, C81_units, C81_accepted, C81_unknown, C81_field_name, C81_driver, C81_driver_many, C81_two_files_counterexample, C81_path_counterexample, C82_found, C82_rotated, C82_missing_parameter, C82_missing_coordinates, C82_unmarked, C82_never_guessed, C82_written, C82_roundtrip_partial, C82_roundtrip_spherical_partial, C82_roundtrip_text_partial, C82_rotated_kept, C82_equal_counterexample, C83_cartesian, C83_cartesian_and_back, C83_from_cartesian_and_back, C83_radians_counterexample, C83_places_partial, C83_geometry_places_partial, C83_field_partial, C83_failed, C83_refused, C83_pole_projected_counterexample, C83_to_pole_counterexample, C83_pole_geometry_counterexample, C83_origin_counterexample, C83_angular_units_counterexample, C83_range_counterexample, C83_holes_counterexample, C83_half_counterexample, C83_cartesian_counterexample, C84_values_partial, C84_given_mask_partial, C84_hidden_partial, C84_unmapped_partial, C84_split, C84_resolution, C84_global, C84_east, C84_west, C84_corners_partial, C84_constant_partial, C84_refused, C84_longitude_first, C84_slices_counterexample, C84_unmasked_counterexample, C84_fill_counterexample, C84_value_mask_counterexample, C84_order_counterexample, C84_transposed_counterexample, C84_no_variables_counterexample, C84_greenwich_counterexample, C84_zero_counterexample, C85_separate, C85_replacing, C85_slice, C85_fancy, C85_ranges, C85_deepcopy_partial, C85_session_partial, C85_member_partial, C86_union, C86_union_ranks, C86_mean_partial, C86_mean_same_partial, C86_between, C86_untouched, C86_succeeds, C86_sequence_counterexample, C86_missing_counterexample, C86_order_counterexample, C86_area_counterexample, C86_ranks_between_partial, C86_root_counterexample, C86_times_counterexample, C86_ranks_missing_counterexample, C87_index_partial, C87_select_partial, C87_processes, C87_all_counterexample, C87_clip_partial, C87_nearest, C87_grid_partial, C87_grid_optimized_partial, C88_whole_partial, C88_exact_partial, C88_given_partial, C88_default_partial, C88_one_chunk, C88_area, C88_checked, C88_contains, C88_coarse_counterexample, C88_signed_counterexample, C88_mask_counterexample, C88_outside_counterexample, C88_template_counterexample, C90_points_partial, C90_box, C90_depth_partial, C90_depth_unmasked, C90_depth_counterexample, C90_hint_partial, C90_hint_unmasked, C90_hint_counterexample, C90_polygons_partial, C90_polygon_hint_counterexample, C90_polygon_box_counterexample, C90_unsliced_counterexample, C91_percentiles_partial, C91_missing_partial, C91_order_partial, C91_monotone_partial, C91_between_partial, C91_read_back, C91_frequency_partial, C91_bad_percentile, C91_masked_counterexample, C91_half_hour_counterexample, C91_even_width_counterexample, C91_wide_counterexample, C91_error_counterexample, C92_read_partial, C92_set_counterexample, C92_mask_counterexample, C92_remove_counterexample, C92_removed_counterexample, C92_null_counterexample, C92_repeated_counterexample, C92_descending_counterexample, C92_renamed_counterexample, C92_types, C92_date_counterexample, C92_schema_partial, C92_schema_counterexample, C93_wrap_partial, C93_unwrap_partial, C93_wrap_returns, C93_unwrap_returns, C93_points, C93_roundtrip_partial, C93_match_partial, C93_straddle_counterexample, C93_hole_counterexample, C93_outside_counterexample, C93_touch_counterexample, C93_corner_counterexample, C93_state, C93_ranks_partial, C93_variable_partial, C93_variable_counterexample, C93_box_partial, C93_box_counterexample, C93_grid_counterexample, C94_records_partial, C94_melted_partial, C94_strict, C95_parts, C95_order_partial, C95_conventions, C95_seasons_partial, C95_unique_partial, C95_all_partial, C95_refused, C95_empty_season, C96_own_names_partial, C96_slice_partial, C96_field_partial, C96_unknown, C96_loose_partial, C96_distributed_partial, C97_values, C97_round_trip_partial, C97_grid_kept, C97_several, C97_integers, C97_own_mask_counterexample, C97_source_mask_counterexample, C97_no_time_counterexample, C97_name_counterexample, C97_expanded_counterexample, C97_grid_partial, C97_mask_shape_counterexample, C97_mask_name_counterexample, C97_value_mask_counterexample, C97_clockwise_counterexample, C97_converter, C97_converter_counterexample, C98_redistribute_partial, C98_refused, C98_scatter_partial, C99_multivariate_partial, C99_inputs_partial, C99_expression_partial, C99_univariate, C99_grouped_partial, C99_divide, C99_input_mask_counterexample, C99_member_counterexample, C99_order_counterexample, C99_place_counterexample, C99_first_counterexample, C99_integer_counterexample, C99_given_counterexample, C100_split_area, C100_split_partial, C100_two_holes_counterexample, C100_threshold_partial, C100_threshold_counterexample, C100_prepared_partial, C100_unsplit, C100_refused, C100_left_out, C100_convert_partial, C100_corners_partial, C100_cleaned_parts, C100_height_counterexample, C100_holes_counterexample, C100_break_counterexample, C101_reduce_shapes_partial, C101_reduce_nodes, C101_reduce_succeeds, C101_reduce_twice, C101_slice_partial, C102_ugrid_names_partial, C102_old_host_counterexample, C102_blank_counterexample, C102_esmf_written_partial, C102_centres_counterexample, C102_mask_counterexample, C102_height_refused_counterexample, C102_esmf_rewritten_partial, C103_inner_corners, C103_outer_corners_partial, C103_rectilinear, C103_regular, C103_strip_partial, C103_array_variable, C103_vector_variable, C103_empty_variable, C103_refused, C103_request, C103_request_with_bounds, C103_bent_counterexample, C103_strip_counterexample, C103_two_forms_counterexample, C103_integers_counterexample, C103_name_counterexample, C103_half_counterexample, C104_closed_once_partial, C104_exceptions_partial, C104_target, C104_parallel_used, C105_places_partial, C105_plain, C105_file, C105_written, C105_format, C105_gap_counterexample, C105_longer_counterexample, C105_allow_empty_counterexample, C105_name_counterexample, C106_history_partial, C106_value, C106_mask, C106_get, C106_get_mask, C106_reshape, C106_bounds_masked, C106_created, C106_bounds_follow, C107_weight_partial, C107_inside, C107_grid_types, C108_extract_partial, C108_again, C108_clean_partial, C108_dangling_never, C108_spatial_partial, C108_grid_partial, C108_grid_crs_never, C109_metadata, C109_open_partial, C109_dtype_partial, C109_nested_never, C109_inherited_never, C109_repeated_never, C109_named_never, C110_set_get, C110_remove, C110_create, C110_history, C110_check_partial, C110_check_never, C110_cascade_partial, C110_cascade_never, C110_variable_partial, C110_no_role_never, C110_clobber_never, C111_points, C111_polygons_partial, C111_tile, C111_slice, C111_point_name, C111_assign_partial, C112_conform_partial, C112_given_units, C112_round_trip, C112_no_units, C112_refused, C112_refused_never, C112_integer_never, C112_read, C112_read_conform, C112_bounds_first_never, C112_bounds_first_then, C112_bounds_twice_never, C112_vector_never, C112_dates_never, C113_columns, C113_read_partial, C113_ranks_partial, C113_one_record_never, C113_lines_never, C113_blank_never, C113_duplicate_never, C113_slice_partial, C113_slice_never, C113_rename_never, C113_rename, C113_added_never, C113_assign_never, C113_assign_partial, C113_round_trip, C114_process_partial, C114_unique, C114_copied_partial, C114_copied_never, C114_refused_never, C115_file_rows_partial, C116_stacked_partial, C116_two_never, C116_unlimited_never, C116_type_counterexample, C116_repeated_counterexample, C116_name, C117_extent_partial, C117_spread_partial, C117_serial_partial, C117_masked_never, C117_vectorized_never, C118_all_partial, C118_total, C118_last, C118_geometries_never, C118_scalar_never, C118_groups_never, C118_without, C118_regrid, C118_given, C119_values_partial, C119_crossing_never, C119_bounds, C119_beyond, C119_single, C119_report_partial, C119_report_single, C120_only_partial, C121_named_partial, C121_repeated_never, C121_capital_never, C121_blank_never, C121_none, C121_unknown, C121_field_never, C121_flag, C121_two, C121_nothing, C121_source, C121_object, C121_self_never, C122_dimension_partial, C122_renamed_never, C122_create_never, C122_replaced_never, C122_variable, C122_variable_never, C123_init_partial, C123_init_never, C123_create, C123_made, C123_create_never, C123_both_never, C125_archive_partial, C125_lost_never, C125_folders_never, C125_again_never, C126_date_partial, C126_early_never, C126_ancient_never, C126_late_never, C126_seconds_never, C127_order, C127_all_partial, C127_ties_never, C127_dropped_never, C127_twice, C129_flat_partial, C129_levels, C129_mixed_never, C129_level_leaf_never, C129_merge_never, C130_collision_never, C130_lost_never, C130_names, C131_daily_partial, C131_refused, C131_later_never, C131_later_counterexample, C131_units_never, C131_units_counterexample, C131_other_units_never, C133_chunks_partial, C133_bands, C133_empty_never, C133_chunker_never, C134_name_partial, C134_letters, C134_single_never, C134_flags_never, C134_month
<!-- END -->

## Plan per property

| id | what is modelled | how it is proved |
|---|---|---|
| C01 | `get_rank_bounds` branch by branch, including its recursive call | closed form of the bounds (arithmetic), then cover/disjoint/balance by induction on ranks |
| C02 | `OcgDist.update_dimension_bounds` over a list of dimensions per rank | C01 applied to the effective size; counterexample where the effective size is 0 |
| C03 | `variable_scatter` (slices by rank bounds) and `variable_gather` (placement by bounds) | concatenation of rank slices is the list; uses C01 |
| C04 | `get_global_to_local_slice` | case split, linear arithmetic |
| C05 | `Dimension.get_distributed_slice` over the list of all ranks | C04 plus induction over ranks |
| C06 | the three prefix-sum protocols as folds over ranks | induction over ranks |
| C07 | `np.array_split`, `create_slices`, `create_nd_slices` | cover exactly once per axis, then product |
| C08 | `create_unique_global_array` on lists of sorted lists | membership reasoning |
| C09 | `reduce_reindex_coordinate_index` on one process, and the owner/lookup relation on many | position in a duplicate-free list |
| C10 | the request/reply exchange as a transition system with message queues | reachable deadlock exhibited; safety of completed exchanges proved for every schedule |
| C11 | `OcgVM` communicator table and the scope context managers as an interpreter of nested scope programs with exceptions | induction on programs |
| C12 | `DummyMPIComm` mailbox as a state machine | induction over histories, refinement to a map |
| C13 | `Dimension.__getitem__` and source index slicing with Python slice semantics | induction over slice chains; counterexamples for the mishandled slice shapes |
| C14 | `get_formatted_slice` | selection equality; counterexample for index -1 |
| C15 | `get_optimal_slice_from_array` | strictly increasing arrays; counterexample otherwise |
| C16 | `get_swap_chain`, `broadcast_array_by_dimension_names` on name lists and index functions | invariant on the prefix already in place |
| C17 | `get_trimmed_array_by_mask` | first/last unmasked row and column |
| C18 | `get_bounds_vector_from_centroids` over `Rat` | list recursion, linear arithmetic |
| C19 | the two corner conversions over index functions | pointwise equality |
| C20 | `CoordinateArrayWrapper` over `Rat` | linear arithmetic |
| C21 | `reorder_array` | rotation lemmas |
| C22 | `expand_grid` | pointwise |
| C23 | hint mask construction over `Rat` vectors | linear arithmetic; counterexample for irregular spacing |
| C24 | split polygons and `iter_spatial_decomposition` | tiling by half-open boxes; counterexample for `yield_idx` |
| C25 | month arithmetic | integer division |
| C26 | `_get_grouping_other_` | groups as filters over the product of unique parts |
| C27 | `get_sorted_seasons` | permutation for distinct keys, counterexample otherwise |
| C28 | `get_time_regions` removal loop | counterexample plus partial theorem |
| C29 | `get_time_region` | filter characterisation |
| C30 | `get_is_date_between` | decision logic; counterexample |
| C31 | `validate_time_subset` | decision logic; counterexample |
| C32 | `get_between` | filter characterisation |
| C33 | mask setters | boolean algebra, induction over updates |
| C34 | `set_mask_by_variable` over index functions | pointwise |
| C35 | `stack` | list append |
| C36 | `VariableCollection` as a state machine | invariant by induction over operations |
| C37 | `get_is_empty_recursive` over trees | counterexample plus partial |
| C38 | mapped slices | pointwise over dimension-name maps |
| C39 | scopes with exceptions | induction over programs |
| C40 | `set_name` | induction over histories |
| C41 | `get_tile_schema` | arithmetic, product |
| C42 | `compute` tile loop | fold of writes over a partition |
| C43 | temporal aggregation fill loop | fold of writes over groups |
| C44 | `MovingWindow` | window characterisation |
| C45 | `Duration` run extraction | induction over boolean lists |
| C46 | `freezethaw1d` | invariant of the event loop; counterexample for -1 |
| C47 | `Convolve1D` mask | counterexample for kernels of length one |
| C48 | threshold counts | counting |
| C49 | weight remapping and merging | fold of placements |
| C50 | `insert_weighted` | fold of writes over a partition |
| C51 | break-value splitting and ragged ranges | induction |
| C52 | in-place start-index subtraction | counterexample plus partial |
| C53 | `DimensionMap` as a state machine | induction over histories |
| C54 | `Iterator` | enumeration lemmas |
| C55 | `EnvParm` | induction over histories |
| C56 | parameter parsing | decision logic |
| C57 | unit comparison over permutations | membership |
| C58 | `SpatialCollection` | induction over histories |
| C59 | subset preparation/finalisation with failures | counterexample plus partial |
| C60 | group-tree enumeration | induction on trees |
| C61 | the touching check of the spatial subset over bounding boxes and cell centres | decision logic; counterexample |
| C62 | `create_slices`-based destination chunks of the grid chunker | slice tiling (C07); counterexample |
| C63 | polygon branch of `convert_to` and the reading iteration | round trip by induction over parts; counterexample |
| C64 | the collective numbering in the ESMF export | prefix sums over ranks (C06); counterexample |
| C65 | `DimensionMap.from_metadata` and group lookups | induction over group paths; counterexample |
| C66 | `OcgInterpreter.execute`: the file system calls of every rank, any interleaving | invariant by induction over schedules; serial runs by induction over the actions; counterexamples |
| C67 | `OperationsEngine.__iter__` around arbitrary virtual machine programs | frees computed for all states; counterexamples for nested and late use |
| C68 | the dataset and geometry loops of the engine with the state kept between passes | loop refines "each pass alone" by induction; counterexamples |
| C69 | live ranks of the geometry loop | exact characterisation by induction over geometries; counterexample |
| C70 | ranks stepping through create / turn / barrier in any order, CSV / vector records, converter loop | data-race freedom invariant over all schedules; file equals the rank-order result; read-back of all records; counterexamples for columns, fields, GeoJSON, cut names, empty ranks |
| C71 | the operations object: arguments, storing, the validation sequence with its side effect, attribute replacement | validation accepts iff an independent list of rules holds; induction over histories; commuting assignments; counterexamples for refused values, sticky CRS, mixed calculations and others |
| C72 | `Model/Records.lean`: records, columns, identifiers, geometry dictionaries | induction over the records with an invariant on every column; counterexamples for null and missing properties, types decided by the first record, identifiers, coordinate systems |
| C73 | `Model/GeomCabinet.lean`: layers as feature lists, selection, slices, identifiers, file lookup | case analysis on the selection, induction over the features for slices and records; counterexamples for both selections, `len`, negative and boolean slices |
| C74 | `Model/GeomArg.lean`: parsing, the selection arguments captured and passed on, metadata | invariants over histories of assignments; counterexamples for arguments not passed on, an iterator's own identifiers, stale metadata, shared parameter objects |
| C75 | `Model/EvalString.lean`: splitting at the equals sign, names, textual replacement of functions, the five patterns and their loop | the text as pieces; matching, searching and substitution on text refine operations on pieces; the loop ends because each pass removes an occurrence; counterexamples for spaces, arguments after commas, exponents, names containing functions |
| C76 | `Model/CalcEngine.lean`: the cache of groupings, the loop over calculations and targets, output names, the field returned | the cache is right for every field seen (invariant over the sequence of collections); adding outputs one by one equals adding them all when names differ; counterexamples for fields of the same name, several texts, own groupings |
| C77 | The argument as text, list of texts and dictionaries; the registry as the list shared by all instances; classes by key, parameter definition, required parameters and variables (`Model/CalcParm.lean`). `float` of a text and `str` of a number are parameters. | For dictionaries and for well-formed text: accepted iff every request resolves and its parameters are accepted and aliases are distinct, with the value given explicitly, by induction over the list; registry by induction over histories; parameters by cases on types. Defects as counterexamples. |
| C78 | Sourced variables (value, loaded and protected flags, dimensions with source indices), reading by source index, slicing and histories of actions | Simulation: a variable that is not yet read tracks the array read at the start through every step; counterexamples for unordered positions, two index arrays, dimensions without source indices, removed values |
| C79 | the file, its dimensions and variables; each rank's program of opens, variable writes, closes and barriers; a step relation in which ranks run in any order and leave a barrier together | invariant over the step relation (the ranks are always inside one phase, so every execution performs one fixed sequence of operations), then induction over the writes: the cells filled so far are those of the parts written so far; the parts cover the whole |
| C80 | variables with names, dimensions and attributes; axis entries by attribute or usual name, bounds, rotated-pole replacement, spatial mask, data variables, distributed dimension, completion of a given map | unique-existence characterization of each entry, errors characterized exactly, invariance under permutation, counting of shared dimensions; counterexamples for transposed coordinates, points, forecasts, scalars and forgotten bounds |
| C81 | metadata by variable with name, units and target units; zipped assignment, validation, the dictionary of field variables, tags; drivers by pattern and key; search in directories | lookups after zipped updates, injectivity of new names, exact condition for acceptance, patterns as infix or prefix; counterexamples for short lists, given metadata, used names, several files, odd paths, unknown keys and directories |
| C82 | `CrsMeta`: CF grid mapping classes, `load_from_metadata`, `get_crs_variable`, creation of fields, `format_spatial_object`, `set_crs`, `update_crs` (attributes), writing, and `COORDSYS_ACTUAL` as state of a process; GDAL as uninterpreted functions | found/rotated/missing/unmarked/never guessed by cases on the classes; round trip by showing that the written file has exactly one grid mapping; histories by induction; counterexamples for radii, equality, `COORDSYS_ACTUAL`, assigned and transformed systems |
| C83 | `CoordTransform`: `update_crs` of grids, geometries and fields; real coordinates, PROJ.4 and GDAL as functions | centres and corners keep their places between known systems and between rotated poles and spheres; geometries with holes; fields by induction over sequences of systems; Cartesian coordinates: law of cosines, there and back both ways; refusals; counterexamples: rotated poles with projected systems and geometries, the origin argument, radians, poles, holes, half transformed fields |
| C84 | `Model/Regrid.lean`: resolution, periodicity, the ESMF grid (centres, mask, corners), the loop over variables and slices, masks and fill values, the checks, coordinate systems around the operation; ESMF's weights are a parameter | values, masks and ESMF grid by unfolding each stage; periodicity of evenly spaced longitudes by summing the differences across zero; corners from the round trip of C19; ten ways in which the property fails shown by witnesses (masks of later slices, no `split`, fill values, user masks, longitude-first storage, no variables, Greenwich, two columns, resolution across zero, coordinate systems left changed) |
| C85 | `Model/Alias.lean`: the memory of a session: buffers, arrays as places in buffers, dictionaries, variable objects, collections; copies, slices, deep copies, and the operations that replace arrays or write into them | every operation has, on the variable itself, the effect it has on a variable alone, and changes memory only in the variable's own arrays; separation of two variables is an invariant of every session, so a refinement to independent variables follows by induction; deep copies, slices by indices and disjoint ranges are separate; six ways in which the property fails shown by witnesses (assigning to a copy or a range, masks cascading from a copy, attributes of collections, siblings of a deep copy, the deep copy of a variable with bounds not in its own collection) |
| C86 | `Model/Average.lean`: areas, weights, the masked weighted average, the slices and squeezes of the weighting loop, both paths of `get_unioned`, the loop over variables, and the combination of several processes; `shapely` is a parameter | arrays by multi-index are related to places by dimension name, the weighted mean is shown to be invariant under scaling and permutation; success is characterised exactly; points of unions by membership; with several processes every average is a mean with positive weights, by induction over the loop; defects (missing data become zero, weights of other cells, refusal by order of variables, geometries without area, weights of the root, weights permuted from one time to the next) by witnesses |
| C87 | `Model/GeomSelect.lean`: the mask of `get_mask_from_intersects` with and without an index, `get_masking_slice` on any number of processes, `get_intersects`, `get_intersection` in its variants, `get_nearest`, `get_buffer`, the operation on fields of geometries, and the selection from grids; `shapely` and `rtree` are parameters with laws | the fills are characterised element by element by induction over the loops; the trimmed slices (C17) have a selected element on each border, a property that the hull of the processes' slices keeps, hence the slice is the smallest and the same for every distribution; the dictionary of distances by an invariant; defects (all of one dimension selected, lines that share ends with an index, hints that replace masks, the default of touching when clipping, optimized selection, buffers without mask) by witnesses |
| C88 | `Model/ChunkFlow.lean`: resolutions, buffer, source chunk of a destination chunk with its checks, weight files (ESMF as a parameter: a weight for each pair of cells), the loop of `write_chunks` over a store of named files, merging (C62) and the index file | a source cell that overlaps a chunk has its centre in the buffered extent if the buffer reaches from centres to edges, hence is in the selected slice (C87) and not masked; the files are rewritten as the pairs of cells of the chunk in global numbers, and the tiles of the chunks (C62) are a permutation of all destination cells; the default buffer reaches when the spacings are even, not negative and at most a factor four apart; defects (coarse sources, coordinates around zero, masked sources, chunks outside, templates without a place, process zero without a slice) by witnesses |
| C89 | `Model/FieldCoords.lean`: fields as variables by name, dimension map, tags and identities of objects and arrays; `get_field_property`, `set_field_property`, the conversion of time variables, `set_bounds`, `add_variable`, `remove_variable`, `set_name`, `set_crs`, `is_data` | an invariant per coordinate (map entry, variable, bounds, attributes merged so far) with a frame condition for everything else, by induction over histories, refined to the last setting; defects (attributes of the previous variable kept, whole collections added, shared names, renaming, removed bounds, bounds of time, coordinate systems not added, `is_data`) by witnesses |
| C90 | `UnstructSelect.subset`: the hint mask from boxes of parts, the object's and the caller's mask in the geometry iterator, the loop, the slice, the geometry variable, the check for touching points; `shapely` is a parameter with laws | refinement: arrays of truth values tell a predicate, and each step is related to the predicate of the specification; hints and third coordinates described exactly with and without masked values; negations by witnesses |
| C91 | `Model/DailyPerc.lean`: ordinals of dates, `get_masked`, `get_dict_caldays`, `get_daily_percentile`, `calculate`, reading back, `freq_perc`, for one cell | days are counted with a next-day function of the calendar and related to ordinals by induction; the window test is shown to mean at most `k` days away for every date; the percentile is read off the sorted values; sets listed in any order give the same result; counterexamples for masks, half hours, even and wide windows and the errors |
| C92 | `Model/VectorRead.lean`: `DriverVector.get_variable_value`, `init_variable_value`, lazy `get_value`/`get_mask`, `set_value`, `set_mask`, `remove_value`, slicing of the field, column types and the schema of written files; GDAL as in C73 | invariant over histories: unread, or equal to the features at the positions left (reading a slice of a file is C73, slicing dimensions C78); independent variables once everything is read; counterexamples for setting, removing, nulls, repeated positions, renaming and dates |
| C93 | `Model/GeomWrap.lean`: rings, polygons with holes, cuts with boxes as a parameter, wrapping and unwrapping of each kind of geometry, the wrapped state of coordinates, geometries, variables and ranks, the action, preparation of geometries and boxes | a place is in a ring by the even–odd rule; shifting a ring shifts the places it covers (induction on the vertices); the cuts are any pieces that cover what the polygon covers in the box; the wrapped geometry covers the places modulo one turn; decision tables; rectangles as an instance of the cuts |
| C94 | `Field.iter` with the coordinate iterators, formatters of times, header maps, melting, renaming and strict selection of columns, on top of the record iterators of C54 | the columns of the iterator tree are a finite set of pairs; renaming by a fold over pairwise different names keeps each value; records are row-major positions not left out; counterexamples on small fields |
| C95 | `get_grouping` with its four kinds: bounds of a group, representative times, labels, dimensions of the new bounds, on top of the groups of C26, C27 and C28 | the extent of a list is its minimum and maximum by induction; groups and their labels are matched by index through `mapM`; the order of representatives is the lexicographic order of the candidates; counterexamples on dates |
| C96 | `Model/FieldSlice.lean`: the mapping of standard names, the slice inside the scope of `Model/Scopes.lean` by `Model/DictSlice.lean`, the distributed slice on one process, names given back to the returned dimensions, the field and the dictionary afterwards | invariants of the renaming and of the reverting loop, the slice commutes with an injective renaming, then C38; counterexamples by computation |
| C97 | `Model/EsmfConvert.lean`: order and shape of the ESMF field, the broadcast scope and masks of `Model/Broadcast.lean` and `Model/Masks.lean`, the grid of `Model/Regrid.lean`, what is attached to ESMF objects, the converter and its validation. ESMF objects only hold what is put in | values by dimension names through C16, masks through C34, corners through C84; refusals by cases; false of the variable's own mask, of shared variables, of variables without time, of named fields without data, and of the mask, corners and name of the mask on grids that come back: concrete witnesses |
| C98 | `redistribute_by_src_idx` on all ranks (gathering, new distribution, scatter, reset or emptying of the collection, reading afterwards), `variable_collection_scatter` with groups | parts given by the split points; invariants of the per-rank update; every counterexample computed from a concrete state |
| C99 | `Model/CellCalc.lean`: operands with dimension names, arrays, masks and data types; the side-by-side iteration over extra dimensions, conforming, NumPy broadcasting, assignment into the output; variable mapping, units, in-place masking | for variables whose extra dimensions agree with those of the first, every element is the function of the elements at the same place (`C99_multivariate_partial`, `C99_expression_partial`, `C99_univariate`, `C99_grouped_partial`), inputs keep their values (`C99_inputs_partial`), wrong units are refused (`C99_units`); false in general: missing, reordered or displaced extra dimensions, a smaller first variable, unused variables in expressions, lost masks, cut-off integers, mappings given in part, changed input masks (counterexamples) |
| C100 | `GeometrySplitter`, node threshold splitting, removal of self-intersections and the loop of `convert_to` over an abstract geometry engine (Model/GeomPrep.lean) | laws trusted of Shapely stated in Spec/GeomPrep.lean and shown to hold of rectangles with holes; area kept by covering of quadrants and of the grid (C24); holes by the centroid law; rows and data by positions of the kept, read back through C63; counterexamples: two holes, threshold, triple nodes, third dimension, repaired polygons |
| C101 | `__getitem__`, the `cindex` setter, `start_index` and `reduce_global` on one process, over the reading of elements (C52) and the serial renumbering (C09) (Model/MeshReduce.lean) | the first complete reading equals an element-wise reading without write-back; a renumbered number finds the node the old one found; the kept numbers are the sorted distinct mentioned ones; counterexamples: start index known only from the attribute, elements with parts, start index 2, arrays of arrays, slicing the ESMF layout |
| C102 | the topology variable of UGRID files, written and read; conversion to the ESMF unstructured format on one process, its reading by sections and its writing (Model/MeshFile.lean) | names by joining and splitting at blanks; shapes by equality of the row and the flat layout element by element (C101); columns by joining and taking sections; counterexamples: kept topology variable, points only, blanks, centres, masks, heights, a single element, writing after iterating |
| C103 | the corners array filled in four passes, strips with one row or column, the bounds variables of coordinate variables and grids, the request option (Model/Extrapolate.lean) | corners by the passes over the border and telescoping sums of the steps; variables by lookup in the collection; counterexamples: rows that turn, strips without extent, vectors and arrays of uneven spacing, integers, names that are taken, bounds on one coordinate |
| C104 | `FileScope.run` over programs of scopes (`enterScope`, `openFile`, `closeFile`) with a log of files opened, used and closed; `writeModes`, `parallelKw` | induction over the program with an invariant on the log; groups of netCDF files are left open (counterexamples) |
| C105 | `AggNc.writeAll` over sequences of collections: `formatField`, `createFile`, `storeIn`; `fileFormat` | invariant over the collections written so far (place of each, emptiness of the rest); counterexamples for empty collections before others, longer texts, `allow_empty` |
| C106 | dimension objects held by reference, collections, variables with value, mask and bounds; every setter returns the state that is left and the exception (`Model/VarShape.lean`) | invariant over histories for limited dimensions and calls that are not refused half way; single-call theorems for any dimensions; counterexamples for shared unlimited dimensions, masks that do not grow, refused calls that leave half a change, forced dimensions and stale bounds masks |
| C107 | the file system as a function from paths; every stage of the command returns the file system left and the exception; grids, ESMF and merging are outside and may fail anywhere (`Model/RwgCommand.lean`) | one invariance lemma per stage, instantiated with the frame condition, with what was there before and with the absence of directories below the working directory; counterexamples for directories that are removed although they were there, nested weight paths, runs that never succeed and files overwritten |
| C108 | `Model/Extract.lean`: `extract`, `spatialExtract`, `gridExtract` over the collections of C36 | Closed form of the extracted collection; removals of lists of names by induction with the relation *left over*, which composes. A clean break with bounds always fails after the removal, bounds names dangle, tags are not cleaned and grids lose their coordinate system: proved as negations. |
| C109 | `Model/NcOpen.lean`: files, metadata and fields as trees; `parse`, `createRaw`, `openFile` by one recursion `Tree.walk` | walk_same/walk_total by mutual induction over trees relate every path; universal negations for nested groups, inherited and repeated dimensions, named fields; witnesses for wrong groups, offsets and predicates |
| C110 | `Model/GridMask.lean`: a field with its variables and dimension map entry; `getMask`, `setGridMask`, histories `run`, SCRIP histories | invariant MaskReady kept by every operation, induction over histories; induction over coordinates for masks from values; cascade from C34; universal negations for one-dimensional coordinates, masks of variables on the grid, variables without role, collections, SCRIP and ESMF files |
| C111 | `Model/GridCells.lean`: grids with vector or matrix coordinates; `geometries`, `geometryVariable`, `getPoint`, `getPolygon`, `CGrid.slice`, `CGrid.assign` | induction over the loop of cells; hulls are unique; contiguous intervals cover and do not overlap by induction; slices commute cell by cell; universal negations for the abstraction point, the name of points, bounds on one coordinate only, assignment without mask, without bounds and to one-dimensional coordinates |
| C112 | `Model/Conform.lean`: variables with bounds, values read or not; `conform`, `load`, `readBounds`, `openNetcdf`, `openVector`; units as affine maps | case analysis on values and bounds, one invariant for everything a conversion makes; round trip by injectivity; universal negations for refused units, integer data types, bounds read first, bounds converted twice, vector files and bounds that are dates |
| C113 | `Model/CsvRead.lean`: a file as records with cells and line counts; `openOn`, `getValue` with its loops and exceptions, `slice`, `rename`, `addVar`, `assign` | induction on the records and variables gives the field after reading; concatenation over the split points of C01; universal negations for one record, lines that are not records, repeated names, slices, renamed, added and assigned variables; round trip with the files of C70 |
| C114 | `Model/ShpProcess.lean`: files by folder and name, features with properties, the schema with the identifier, the loop over the features with counter or copied property, the source read after the output was opened, the command | Induction on the features for counted, copied and refused identifiers (`loop_count`, `loop_copy`, `loop_stop`); the integer of a property is the one next to it on the side of zero (`toInt_ok`) |
| C115 | `Model/DatasetUid.lean`: the caller's objects and their identifiers, one step of the iteration with the change through the driver, the iteration, the rows of the identifier file | Induction on the datasets: the state before each position (`walk_at`), what a step keeps and changes (`step_keeps`, `step_other`), a second iteration (`walk_again`) |
| C116 | `Model/GroupStack.lean`: variables with values at positions, collections, setting an array into another as numpy does, the loops over groups and variables, removing and adding variables with their dimensions | Induction on groups for filling (`fillAll_ok`, `fillAll_some`) and on dimensions for adding (`addDims_ok`, `addDims_eq`); exceptions from the dimension that stays in the collection |
| C117 | `Model/ExtentGlobal.lean`: parts of a grid with values and masks, extent on a process, minimum and maximum with not-a-number, gathering to the root and broadcasting, waiting processes | The least of the least values of non-empty parts is the least of all (`npMin_spec`, `npMax_spec`, induction on values); uniqueness of the extent gives independence of the spread |
| C118 | `Model/RequestSize.lean`: variables with bytes and shapes, fields, dictionaries with insertion order, melted rows, sizes and total | Induction on fields for the dictionary (`foldl_setKey`, `foldl_last`), on variables for the sums (`sumUp_eq`) |
| C119 | `Model/VarResolution.lean`: absolute values, differences, mean, the limit of a hundred, the report of time variables | Induction on values: the sum of the code is at most the sum of distances (`summed_le`), less with a change of sign (`summed_lt`) and equal without (`summed_eq`) |
| C120 | `Model/CsvShp.lean`: fields with geometries and identifiers, records of the table and the shapefile, write modes of collections, exceptions with the files they leave | Both files hold the records of the same fields (`write_all`, induction on collections); identifiers of a field differ (`ids_nodup`) |
| C121 | `Model/RegridDest.lean`: datasets with names and flags, formatting of text, the loop over names, flags, the check of sources, which datasets are regridded | Induction on datasets (`find_spec`, `find_field`, `flagged_one`); lower-case text has no capital letters (`lower_not_capital`) |
| C122 | `Model/DistRegistry.lean`: ranks, groups by path, the dictionaries of dimensions and variables, adding, looking up, making groups on the way, empty ranks | Induction on ranks (`addDimTo_ok`, `addVarTo_ok`: what every rank has afterwards, and that others are untouched); setting keys (`get_setKey`) |
| C123 | `Model/CrsCreate.lean`: definitions as ordered dictionaries, the projection libraries as parameters, the choice among definition, text and code, init keys, the fuzzy checks, `create_crs` | Looking up keys is having them first (`get_iff`); the checks are the specification (`sphere_iff`, `wgs_iff`); case analysis of the choice (`make_start`) |
| C124 | `Model/Justify.lean`: stripping, splitting and joining words, the inner loop, the outer loop with a number of turns | What one turn does (`turn`); induction on turns for the rows (`rowsOf_ok`) and for the endless loop (`rowsOf_stuck`); words are unique (`words_unique`) |
| C125 | `Model/ZipReturn.lean`: files below a folder with the folders on the way, names in the archive, what is found under a name, the choice of the path | Finding is the last entry with the name (`extract_iff`, `last_of`); entries and files (`mem_items`) |
| C126 | `Model/TemplateTime.lean`: digits of a number, slices of them, hour and minute of the fraction; exact arithmetic | Digits one by one (`digits_step`), for six to nine of them; the minute of a fraction is unique (`minute_of`, `minute_unique`) |
| C127 | `Model/UriSort.lean`: the dictionary by last time, its sorted keys | Induction on the files from the right: an entry is a file that is last with its end (`table_inv`); insertion sort is a sorted permutation |
| C128 | `Model/AttrSearch.lean`: the loops over variables and attributes, with value and predicate | A variable is appended once per accepted attribute (`find_some`); a name has at most one (`looked_count`) |
| C129 | `Model/MetaOverride.lean`: merging of the attributes, and the two updates on the output | Look-up after `update` by induction (`lookup_update`); cases of what is given |
| C130 | `Model/NcCollect.lean`: the loop over variables with predicate and new names, the recursion into groups | Induction on the path to a group (`at_path`), on the variables for what is under a name (`fold_lookup`) |
| C131 | `Model/FreezeFrame.lean`: the check of the first step, the conversion by the first variable's units, around `Series.freezeThaw` | Cases of the times (`check_daily`); conversion undoes Kelvin (`kelvin_back`) |
| C132 | `Model/CliHistory.lean`: the parameters of the command, the words of the history, a command line taken apart | Induction on the parameters (`parse_parms`); the keys of the parameters differ (`key_unique`), so that words tell settings apart (`parm_eq`) |
| C133 | `Model/ScripChunk.lean`: unique sorted latitudes, their split, the mask of a chunk, the call with its keyword | The pieces of a split flatten to the list (`arraySplit_flatten`), so that order within the list is order between pieces (`pieces_less`) |
| C134 | `Model/SeasonLabel.lean`: the letters of the months, the names joined, the flag at the end | The parts of a joined name are found again (`cut`, `joined_inj`); two letters in a row tell the months (`pair_inj`, all 144 pairs); induction on the grouping (`collect_eq`) |
| C135 | `Model/OcgLogging.lean`: the state of the logger, configuring and shutting down, the effects of a call | States with nothing to log to differ in the level only (`Alike`), which no call sees (`emit_alike`); the last step of a history makes states alike (`apply_alike`) |

## Disagreements between code and property, and what the partial theorems leave out

Generated from the doc strings of the `_counterexample` theorems (the code violates the property; the witness is in the
theorem) and of the `_partial` theorems (what is proved instead, and what is missing).

<!-- DISAGREEMENTS -->

**C02**

* `C02_update_dimension_bounds_counterexample`: C02 is false of the code: a one-element dimension distributed over two ranks with the default `min_elements=2` is emptied on every rank, so its element is owned by nobody.
* `C02_update_dimension_bounds_partial`: C02, partial: the statement holds whenever the dimension has at least `min_elements` elements or there is only one rank. Missing: `0 < len < min_elements` on several ranks, where it is false (next theorem).

**C03**

* `C03_lost_element_counterexample`: C03 is false of the code for a variable with one element on two ranks (and the default `min_elements=2`): no rank is sent anything.
* `C03_scatter_gather_partial`: C03, partial (as C02: the distribution loses no element). Scattering a variable over the pieces of a distribution and gathering the non-empty parts again gives the same hyperslabs (values and mask) in the same order, with the source indices of the distributed dimension and its length restored. Missing: fewer elements than `min_elements` on several ranks, where it is false (`C03_lost_element_counterexample`).

**C05**

* `C05_negative_slice_counterexample`: Outside C05's guard: with negative bounds the parallel slice is not the serial one. `dim[-3:-1]` of a two-rank dimension of four elements selects two elements serially and none in parallel.

**C06**

* `C06_ugid_empty_counterexample`: C06 is false of unique identifiers on a rank that holds no element: they are refused (callers must enter a scope of the non-empty ranks).
* `C06_ugid_global_partial`: C06, unique identifiers (`create_ugid_global`), partial: as above, when no rank is empty. Missing: ranks without elements, which are refused (`C06_ugid_empty_counterexample`).

**C08**

* `C08_empty_counterexample`: C08 is false of a rank without values: the operation fails there (and the other ranks wait for it).
* `C08_unique_global_partial`: C08, partial (no rank's array is empty; otherwise see `C08_empty_counterexample`): on every schedule of the collective unique operation, each rank returns, sorted and without repetition, exactly those of its values that no lower rank holds.
* `C08_each_value_once_partial`: C08, partial as above: hence every value of every rank is returned by exactly one rank, once.

**C09**

* `C09_parallel_partial`: C09, any number of processes: on every schedule the preparatory collective steps succeed, and whatever the order of steps of the exchange (with prompt or delayed message delivery), no process fails, and a process that is done holds new indices which refer, in the concatenation of the ranks' retained nodes, to the nodes its old ones referred to; retained nodes are exactly those referenced somewhere, each once. Partial: no rank's array is empty (the unique operation refuses that, `C08_empty_counterexample`), no index is negative, and that every process gets done is C10.

**C10**

* `C10_deadlock_counterexample`: C10 is false of the code when message delivery may be delayed: three processes can get into a state from which they never complete, because each polls for requests once, before the other's request has arrived, and then waits for its own reply without polling again. The starting data is what the preparatory steps give for these index arrays.
* `C10_never_stuck_partial`: C10, when a sent message can be received at once: from every state the exchange can get into, it can still complete on every process, so no interleaving leads to a deadlock. Missing: the same for delayed delivery, where it is false (`C10_deadlock_counterexample`); and a bound on the number of fruitless polls, which needs a fairness assumption.

**C11**

* `C11_same_name_counterexample`: C11 is false of the code when an inner scope reuses the name of a surrounding scope and this process sees an empty rank list: the inner scope silently replaces and then frees the outer communicator, the outer scope's exit fails, and the current communicator is left pointing to a name that no longer exists.
* `C11_serial_name_remains_counterexample`: With the serial communicator the name of a finished scope stays registered (it still denotes the serial communicator).
* `C11_scope_restores_partial`: C11 on a parallel virtual machine: take any scope with any body (nested scopes, failures, hand-made sub-communicators), where `active` are the scopes around it, including the current one. If the scope is entered, then afterwards - whether the body returned or raised - the current communicator (by name and by value) is the one before, the scope's sub-communicator is gone, the scopes around it still have theirs, and the outcome of the scope is the outcome of the body. If it cannot be entered, nothing changes. Missing: bodies that open a scope under the name of a surrounding one with an empty rank list (`C11_same_name_counterexample`), or free a surrounding scope's name.

**C13**

* `C13_open_slice_counterexample`: C13 is false of open-ended slices: `dim[:2]` on a five-element dimension without source indices stays five long; with bounds as source index it raises; `dim[-1:]` likewise.
* `C13_negative_array_counterexample`: C13 is false of index arrays with negative entries on a dimension whose source index is a pair of bounds: the source indices are silently wrong.
* `C13_negative_int_counterexample`: C13 is false of `dim[-1]`: it raises although numpy returns the last element.
* `C13_source_indices_follow_partial`: C13 (partial: chains of supported indices). Slicing a dimension that carries source indices by any chain of supported indices, no intermediate result being empty, succeeds; the result's source indices are those numpy picks from the original list with the same chain, and its length is their number. Missing: indices outside `Supported` (open-ended or negative slices, negative integers, unsorted or repeated index arrays, for which the claim is false - see the counterexamples).
* `C13_length_follows_partial`: C13 (partial, as above) for a dimension without source indices: its length is the number of elements numpy picks from any list of the original length.

**C14**

* `C14_minus_one_counterexample`: C14 is false of the integer -1: it becomes the empty slice `-1:0`.
* `C14_descending_counterexample`: C14 is false of descending index arrays: `[2, 0]` becomes `0:3`.
* `C14_formatted_slice_partial`: C14 (partial: excludes the integer -1 and index arrays that neither contain a jump nor are a run). Normalising an index and selecting with the result selects the elements the original index selects: any slice, any boolean array, `None`, any valid integer but -1, any array with a jump, and any run of consecutive non-negative valid positions.

**C15**

* `C15_order_counterexample`: C15 is false of descending arrays and of repeated elements: `[5, 1]` becomes `1:6`, `[2, 2]` becomes `2:3`.
* `C15_same_selection_iff_partial`: C15 (partial: the property is false in general; this is exactly when it holds). For a non-empty array of valid positions, the conversion (with the difference check) selects the same elements in the same order from the array of all positions if and only if the array contains a jump or is a run of consecutive integers.

**C16**

* `C16_scope_dropping_counterexample`: C16: a scope that drops a dimension of length one cannot put it back: it ends with an error and the variable has lost the dimension.
* `C16_scope_restores_partial`: C16: at the end of a broadcast scope for a permutation of the dimensions, whether the body returned or raised, the dimensions are in their original order and every element that the body left is at its named position; in particular a body that leaves the variable alone leaves the original values and mask. Scopes that drop a length-one dimension are missing (`C16_scope_dropping_counterexample`).

**C21**

* `C21_row_without_negative_counterexample`: C21: a row without a negative longitude (possible in a wrapped two-dimensional grid) makes the whole reordering fail.
* `C21_rotation_partial`: C21, partial (rows without a negative longitude are excluded, see the counterexample below): when every longitude row has a negative value, reordering succeeds for all arrays over the rows: each row of longitudes and each line of data (values with their masks) of that row is rotated by the same amount, so that the row's first negative longitude comes first.

**C23**

* `C23_centred_grid_counterexample`: C23 counterexample: the resolution is computed from absolute coordinates, so it is zero for this evenly spaced grid centred on zero; the hint then drops the only cell that contains the rectangle (1..2, 1..2), and nothing is selected.
* `C23_nothing_lost_partial`: C23, partial (the last two hypotheses: no cell reaches further from its centre than 1.25 times the resolution): the subset masks exactly the cells that were masked or that the exact test rejects, so the hint loses nothing.

**C24**

* `C24_single_element_counterexample`: C24 counterexample: whichever element is asked for, the decomposition yields nothing.

**C25**

* `C25_converts_counterexample`: C25 counterexamples: a gap of two years, a decreasing vector over a year boundary and a negative offset are all refused.
* `C25_converts_partial`: C25, partial (offsets must start non-negative and never fall or jump by more than a year; see the counterexamples): such a vector is always converted, as long as the dates stay before the year 10000.

**C27**

* `C27_counterexample`: C27 is false: two seasons ending with the same month are sorted into one.
* `C27_permutation_partial`: C27 (partial: the seasons are not empty and no two of them end (`max`) or begin (`min`) with the same month): the result contains exactly the seasons given, in order.

**C28**

* `C28_removal_counterexample`: C28 is false: with two season-years without data, complete seasons are lost (here the whole selection fails).
* `C28_year_gap_counterexample`: C28 is false: with a year missing, December of one year and January and February of a later one make a season.
* `C28_single_year_counterexample`: C28 is false: within one year, December and the January and February before it make a season.
* `C28_complete_partial`: C28 (partial: consecutive years; seasons of consecutive months; more than one year if a season goes over the turn of the year; and at most one season-year with no data at all in one of its years): the groups are exactly those of the complete seasons, in order of year and season, and each group holds exactly the time steps of its season.

**C29**

* `C29_cells_counterexample`: C29 with longer cells is false: a cell from December to March is not kept when January is asked for, although a December-to-March range contains January.
* `C29_cells_partial`: C29, cells with bounds (partial: cells of one month at most): the cells kept are exactly those beginning in one of the months and years asked for, in their order.

**C30**

* `C30_crossing_counterexample`: C30 is false: January lies between December and March, but is not accepted.
* `C30_range_partial`: C30 (partial: the range does not go over the end of the year). For years the range never does.

**C31**

* `C31_month_after_range_counterexample`: C31 is false: February is accepted for a range from 15 to 20 January 1970.
* `C31_first_month_counterexample`: C31 is false: January is refused for a range from 15 to 20 January 1970.
* `C31_middle_month_counterexample`: C31 is false: only the smallest and the largest month are looked at; June is accepted for a range from 15 November 1970 to 15 February 1971 if it is asked for together with January and December.
* `C31_february_counterexample`: C31 is false: February is stepped over in a range from 31 January 1970 to 30 November 1970.
* `C31_years_partial`: C31, years (partial: regions without months): accepted exactly when every year asked for occurs in the range.
* `C31_month_sound_partial`: C31, months (partial: one month only, and only one direction): a month that is accepted occurs between the beginning of the range and 29.5 days after its end.
* `C31_month_accepted_partial`: C31, months (partial: the months of every 59th half day only): the month of every moment `t0 + 29.5 d · k` (`k ≥ 1`) in the range is accepted.
* `C31_several_months_partial`: C31, several months (partial: single months only as in the theorems above): a list of months is accepted exactly when its smallest and its largest month are each accepted on their own.

**C32**

* `C32_indices_counterexample`: C32 is false with indices: when what is left is one run of elements, the call fails instead of naming them.

**C34**

* `C34_same_dimensions_counterexample`: C34 is false without update for a variable over the same dimensions in the same order: what was masked there is no longer.
* `C34_cascade_partial`: C34 (the variables have different dimensions, or existing masks are updated): cascading a mask from one variable to another masks exactly the elements whose coordinates along the shared dimensions are those of a masked element of the source, in addition to those already masked; whatever the order of the dimensions, and whichever others there are.

**C35**

* `C35_dimension_order_counterexample`: C35 is false for variables whose dimensions are in different orders: the values go in by position, so the element of the second variable at y = 0, x = 1 is found at y = 1, x = 2 + 0 instead of y = 0, x = 2 + 1.
* `C35_broadcast_counterexample`: C35 is false for variables whose other sizes differ, if one is a single element: instead of an error, the element is repeated.
* `C35_stack_partial`: C35 (variables with the same dimensions in the same order, of the same sizes but for the stacked one): stacking succeeds, and the values and the mask of the result are the concatenations of the values and masks in the order of the inputs; it has no mask only if none of them has one.

**C36**

* `C36_refused_addition_counterexample`: C36 is false of refused additions: the dimensions added before the refusal stay.
* `C36_forced_counterexample`: C36 is false of forced additions: a dimension of another size takes the place of that of a stored variable.
* `C36_rename_onto_counterexample`: C36 is false if a dimension is given the name of another: the variable then has a dimension of the wrong size.
* `C36_tags_counterexample`: C36 is false of tags: names that are not stored can be tagged, and a tagged variable that is renamed leaves its old name.
* `C36_history_partial`: C36 (careful histories): after any history of operations, whether they succeed or not, the collection is consistent: nothing is forced, what is added is itself consistent, dimensions and variables are renamed to names that are not in use, tagged names are those of stored variables, and a tagged variable is not renamed.
* `C36_refused_partial`: C36: dimensions that cannot be added, variables that cannot be removed or renamed, dimensions that cannot be renamed and names that cannot be added to a tag leave the collection as it was.

**C37**

* `C37_counterexample`: C37 is false: only the last child counts. With a child that is not empty before one that is, the collection is reported empty although neither it nor the first child is; with the children the other way round it is not.
* `C37_uniform_partial`: C37 (uniform trees): a collection which is empty with all of its descendants is reported empty; one which is not, and none of whose descendants is, is not.

**C38**

* `C38_two_arrays_counterexample`: C38 is false with index arrays for two dimensions of a variable: the dimensions become two by two, the variable has two elements.
* `C38_collection_partial`: C38 (indices the library treats like numpy, and at most one index array for the dimensions of any one variable): slicing a collection by a dictionary of dimension names succeeds. There are positions to keep for each dimension, those the index given for it selects, or all of them if none is given; each dimension becomes as long as their number, and every variable is restricted to these same positions along each of its dimensions, whatever their order.

**C39**

* `C39_added_variable_counterexample`: C39 is false when the body adds a variable (or renames one): the scope ends with a `KeyError`, and the variables after the new one keep their temporary dimension names.
* `C39_swap_counterexample`: C39: inside the scope a mapping that swaps two names does not swap them on the variables.
* `C39_automatic_abstraction_counterexample`: C39 is false of the stored abstraction: an automatic abstraction is fixed by the scope, and no longer follows the grid when bounds are added to it.
* `C39_renamed_on_variables_partial`: C39 (scopes that add no variable): after the scope the collection's dimensions, their names, and the dimension names of its variables are what they were before, whatever else the body does, and also when it or the setting up raises; the exception comes through.

**C40**

* `C40_aliases_counterexample`: C40 is false of the aliases: a rename forgets the aliases recorded before it, the earlier names included.
* `C40_name_and_aliases_partial`: C40: the object has the last name it was given, and can be found by it and by every alias given with it or since.

**C43**

* `C43_wrong_shape_counterexample`: C43 needs functions that return arrays of the right shape: a masked array of another shape is dropped without an error, and the output keeps whatever the new array held.

**C44**

* `C44_masked_counterexample`: C44 is false of masked inputs: in both modes a masked step gets the value of its neighbours and is no longer masked; and in mode `valid` a window without unmasked values, whose result is masked, is unmasked.
* `C44_valid_partial`: C44, mode `valid`: for every series at least as long as the window, every odd width of at least three and every operation, the result at each step with a full window is the operation over exactly the `k` steps centred on it, and it is not masked; every other step is masked.

**C45**

* `C45_isolated_counterexample`: C45 is false if every run is a single step: several of them are counted as one.
* `C45_std_counterexample`: 
* `C45_durations_partial`: C45 (some run has two steps or more): the durations are the lengths of all the maximal runs of steps satisfying the condition.
* `C45_frequencies_partial`: C45 (some run has two steps or more): the frequencies list each length that a maximal run has, once, with the number of maximal runs of that length, and no other length.

**C46**

* `C46_negative_counterexample`: C46 is false: a series that never reaches the threshold has the index minus one.
* `C46_count_partial`: C46 (an event is found): the index is one less than the number of events, so not negative; masked values are left out.

**C47**

* `C47_single_kernel_counterexample`: C47 is false for a kernel of length one: every step overlaps fully, and every step is masked.
* `C47_valid_partial`: C47 (kernels of length at least two, not longer than the series): the steps that are not masked are exactly those for which the kernel overlaps the series fully, and they have the value of the convolution there.

**C50**

* `C50_whole_partial`: C50 (the chunks of the chunker, no dimension of length one split): the whole destination is rebuilt.

**C52**

* `C52_esmf_counterexample`: **C52 (counterexample)**: in the ESMF layout with start index one (what ESMF files have), the first iteration over two triangles yields them and stores the shifted numbers, the second iteration yields other geometries, and the third and fourth again others.
* `C52_esmf_shift_counterexample`: **C52 (counterexample, in general)**: in the ESMF layout with a positive start index every complete iteration subtracts the start index from the whole stored connectivity, so unless the connectivity is empty it is changed.
* `C52_reading_is_pure_partial`: **C52 (partial)**: for connectivity stored one row per element (UGRID) with any start index, and for the ESMF layout with start index zero, any number of iterations over the geometries of a grid that can be read once all succeed, all yield what the first one yielded, and leave the connectivity as it was. Missing: the ESMF layout with a positive start index, where it is false (`C52_esmf_counterexample`).
* `C52_partial_iteration_partial`: **C52 (partial, incomplete iteration)**: the same when the consumer draws any elements in any order and stops wherever it likes.
* `C52_each_element_partial`: **C52 (elements, partial)**: for the same layouts, an iteration yields exactly one entry for each element asked for, in order: nothing for a masked element, and for any other element the geometry it has when it is read on its own.

**C53**

* `C53_attrs_counterexample`: **C53 (counterexample, attributes)**: attributes are not what was set last: a second `set_variable` with another value for an attribute keeps the first value.
* `C53_section_counterexample`: **C53 (counterexample, section)**: the section of a variable stays when the key is set to another variable without a section.
* `C53_bounds_error_counterexample`: **C53 (counterexample, bounds before a variable)**: setting bounds on a key that was never touched raises a bare `KeyError`; after merely reading the key the same call raises a `DimensionMapError`.
* `C53_dict_counterexample`: **C53 (counterexample, dictionaries)**: a map with a topology, with a grid abstraction, or whose bounds were only read cannot be imported from its own dictionary; a spatial mask's own attributes are lost.
* `C53_group_counterexample`: **C53 (counterexample, groups)**: setting a group that exists changes nothing and raises nothing; setting a group inside a missing group raises an `AttributeError`.
* `C53_topology_counterexample`: **C53 (counterexample, topologies)**: on a map with some other topology, asking for a missing topology without creating it stores `None`, and asking again with creation then returns `None`.
* `C53_dict_roundtrip_partial`: **C53 (dictionaries, partial)**: exporting a map to a dictionary and importing it gives a map with the same groups whose getters report the same for every entry, coordinate system, mask and driver, at every depth of nesting. Missing, because false: maps with topologies, a grid abstraction or an isomorphism flag, entries whose bounds, dimension or attributes were read before anything was set, and the attributes of the spatial mask (`C53_dict_counterexample`).
* `C53_dict_reachable_partial`: **C53 (reachable)**: every map built from nothing by successful calls of the setters for variables, bounds, coordinate system, driver and mask (without mask attributes) and by reads of variables, coordinate system and mask survives the trip through a dictionary.
* `C53_set_group_partial`: **C53 (groups, partial)**: setting the map of a group that does not exist yet below the root makes `get_group` return it, and leaves every other group and the root as they were. Missing, because false: replacing an existing group and creating a group inside a missing one (`C53_group_counterexample`).
* `C53_topology_partial`: **C53 (topologies, partial)**: a topology that is present is returned by every request; one that was never asked for is created on request, and later requests return the created map; other topologies are not affected. Missing, because false: a topology asked for without creation first (`C53_topology_counterexample`).

**C54**

* `C54_melted_repeaters_counterexample`: **C54 (counterexample, melted repeaters)**: a melted row carries the repeaters of the variables before it: here the row of `b`, which has none, shows the repeater of `a`.
* `C54_melted_alone_counterexample`: **C54 (counterexample, melting a lone variable)**: with an empty list of followers melted iteration yields no row at all.
* `C54_stale_order_counterexample`: **C54 (counterexample, order)**: a follower that already follows an iterator with the dimensions the other way round keeps that order when both follow a lead with the follower's own dimensions: at position `(0, 1)` of the lead the follower shows its value at `(1, 0)`.
* `C54_mixed_masking_counterexample`: **C54 (counterexample, mixed masking)**: a lead that allows masked records with a follower iterator that does not raises a `TypeError` at the first masked position of the follower.
* `C54_reuse_counterexample`: **C54 (counterexample, reuse)**: following a lead changes the follower: iterated by itself afterwards, a variable with two values yields four rows.
* `C54_get_iter_counterexample`: **C54 (counterexample, bounds not asked for)**: `get_iter` on any variable with bounds raises a `TypeError` unless the bounds are asked for.
* `C54_repeat_record_counterexample`: **C54 (counterexample, repeat record)**: every `get_iter` call doubles the variable's own list of repeated columns: after `n` calls it is `2 ^ n` times as long.
* `C54_melted_partial`: **C54 (melted, partial)**: melted iteration with at least one follower yields, for every position that is not left out in row-major order, one row per melted variable in the given order; each has the variable's name and value at the position in their columns, the other variables unchanged, and no column for a melted variable. Missing, because false: that a row carries only the repeaters of its own variable (`C54_melted_repeaters_counterexample`), and rows when there is no follower (`C54_melted_alone_counterexample`).

**C55**

* `C55_marker_counterexample`: **C55 (counterexample)**: a parameter set to the text `'use_env'` reads as if it were not set.
* `C55_coordsys_counterexample`: **C55 (counterexample)**: the default coordinate system cannot be set: assignments are accepted and lost.
* `C55_probed_counterexample`: **C55 (counterexample)**: a probed parameter keeps what was probed at the import or reset and no longer follows its operating system variable.
* `C55_raw_counterexample`: **C55 (counterexample)**: an operating system variable for a parameter without formatter stays text: the maximum string length, an integer by default, reads as a string; so does a data type.
* `C55_failed_reset_counterexample`: **C55 (counterexample)**: an unreadable operating system variable for the first probed parameter makes the reset raise before the second is probed, which then reads as `None`.
* `C55_set_partial`: **C55 (set)**: after any history, a parameter that is set to a value reads as that value from then on, whatever the operating system's variables, until it is set again or the environment is reset. Missing because false: the value `'use_env'` (`C55_marker_counterexample`) and the parameter `DEFAULT_COORDSYS` (`C55_coordsys_counterexample`).
* `C55_unset_partial`: **C55 (not set)**: from the import or the last reset on, a parameter that is not set reads as the operating system variable of the moment in the parameter's format, otherwise as the default (of the moment of that reset), whatever happened before the reset and even if the reset raises. Missing because false: the parameters probed at the reset (`C55_probed_counterexample`).
* `C55_import_partial`: **C55 (at import)**: the same from the import on.

**C56**

* `C56_integers_counterexample`: **C56, counterexample (repeated integers)**: the pieces are compared before they are read, so the same identifier may come out twice.
* `C56_rejection_counterexample`: **C56, counterexample (rejection)**: other exceptions come out for strings that are no integers beside null, no dates, no regions, no codes, and for the options of regridding whatever the string.
* `C56_null_counterexample`: **C56, counterexample (null)**: `None` is a name of a geometry identifier, not null.
* `C56_refused_counterexample`: **C56, counterexample (strings that should be taken)**: two numbers are refused as a level range, a number as a search radius multiplier, and the old name of an output format with a blank before it.
* `C56_taken_counterexample`: **C56, counterexample (strings that should be refused)**: a repeated group, two flags of which one is dropped, a flag without seasons, six slices where there must be five, and month numbers that do not exist.
* `C56_datasets_counterexample`: **C56, counterexample (datasets)**: variable names in excess are dropped without notice, and too few raise an `IndexError`.
* `C56_rejection_partial`: **C56, partial (rejection)**: for every string, the parameters other than the five below that refuse it do so with a definition error. Missing: `C56_rejection_counterexample`.
* `C56_null_partial`: **C56, partial (null)**: for every string and every parameter that can be given by one, except those that keep the case of their text: the value is null exactly when the parameter is nullable and the string is `none` in any case with any blanks around it. Those that keep the case want it in lower case (`C56_text`, `C56_null_counterexample`).

**C57**

* `C57_fallback_counterexample`: **C57 (counterexample)**: asked to try the library on a machine that has none, the comparison does not fall back to the texts: it raises an `ImportError` even for equal texts.

**C58**

* `C58_alternating_counterexample`: **C58 (counterexample)**: the iteration is not in insertion order when the additions alternate between containers.
* `C58_held_counterexample`: **C58 (counterexample)**: fields that the container object already holds are yielded as well although they were never added, and they make an unforced addition of the same name fail.
* `C58_lookup_counterexample`: **C58 (counterexample)**: the container without geometry cannot be asked for: its identifier `None` means the first container. In an empty collection asking for anything raises an unrelated error, and without a field name an empty container is returned in place of a field.
* `C58_insertion_order_partial`: **C58 (insertion order)**: if every addition names a new field of its container, and the additions to each container are made in one go, the iteration is exactly the additions in order.
* `C58_lookup_partial`: **C58 (lookup)**: after any history, asking for a field by name in a container with a geometry returns the field last filed there; a container or name that was not used raises a `KeyError`.
* `C58_first_field_partial`: **C58 (first field)**: after any history, asking a container with a geometry for a field without a name returns the field filed under the name that was first added to it; without a container the one of the first addition is taken.

**C59**

* `C59_wrap_counterexample`: **C59, counterexample (wrapping)**: a successful subset with wrapping leaves the source with −370 where it had −10, and −160 where it had 200.
* `C59_raise_counterexample`: **C59, counterexample (raise)**: a subset whose geometry meets nothing leaves the source shifted, and so does an operation that is not supported.
* `C59_rotated_counterexample`: **C59, counterexample (rotated pole)**: whatever the transformation gives is what a rotated pole source is left with, together with the other coordinate system, also when the subset succeeds.
* `C59_rounding_counterexample`: **C59, counterexample (rounding)**: with sums rounded as doubles are, a successful subset may leave a source coordinate different from what it was.
* `C59_below_counterexample`: **C59, counterexample (below −360)**: a subset that raises and then one that succeeds leave a coordinate below −360 shifted, since only the last shift is remembered.
* `C59_success_partial`: **C59, partial**: for a field that is not on a rotated pole, with no wrapping of the output asked for, exact arithmetic and coordinates that `Plain` describes: after any history of subsets with one object, whatever raised in between, a subset that succeeds leaves the source with the coordinates and the coordinate system it had at the start, and one that is refused by the checks of its arguments changes nothing. Missing: subsets that raise later (`C59_raise_counterexample`), rotated poles, wrapping and rounding (the other counterexamples).
* `C59_history_partial`: **C59, partial**: under the same conditions, when every subset of a history succeeds or is refused by the checks of its arguments, the source is as it was.

**C61**

* `C61_vectors_counterexample`: C61 counterexamples on grids with coordinate vectors: a centre on a corner goes unnoticed, and any grid with more rows than columns fails with an index error.
* `C61_touching_barrier_partial`: C61 for grids with two-dimensional coordinates: the barrier stops the subset exactly when a cell centre lies on a corner of the box.
* `C61_vectors_partial`: C61 on grids with coordinate vectors that have at least as many columns as rows (partial): the barrier stops the subset exactly when the column with the number of the last row lies on a vertical side and some row on a horizontal side. In particular it only stops a subset with a centre on a corner.

**C62**

* `C62_length_one_counterexample`: C62 is false if a dimension of length one is split: no chunk contains any cell.
* `C62_empty_chunks_counterexample`: C62: fewer than two cells per chunk are never given: the chunks left over are empty.
* `C62_chunks_tile_partial`: C62 (no dimension of length one is split): the chunks of the destination are as many as asked for, lie inside the grid, and each cell of the grid is in exactly one of them.

**C63**

* `C63_multipart_start_index_counterexample`: **C63 (counterexample)**: a polygon of two triangles written with start index one is read back as one ring: the break value was shifted together with the numbers, is not recognised any more, and the shifted value picks a node from the end.
* `C63_write_then_read_partial`: **C63 (partial)**: polygons converted to coordinates and connectivity and read back are the same polygons in the same order, packed or not: single-part polygons for every start index, multi-part polygons for start index zero. Packed conversion stores every node once. Missing: multi-part polygons with a positive start index, where it is false (`C63_multipart_start_index_counterexample`).

**C64**

* `C64_start_index_counterexample`: **C64 (counterexample, start index)**: with start index one on two ranks the second rank's triangle "p q r" is exported with numbers 5 6 7 although its nodes are number 4 5 6 of the joined nodes: the numbers point one node too far and the last one at nothing, so reading the export raises.
* `C64_empty_rank_counterexample`: **C64 (counterexample, empty rank)**: a rank without polygons makes the export raise.
* `C64_esmf_export_partial`: **C64 (partial)**: polygons spread over any number of ranks, converted on each rank and exported to the ESMF layout, are read back from the exported connectivity and the ranks' nodes laid end to end as the polygons of the first rank, then of the second, and so on: the numbers of every rank are shifted to where its nodes end up. Missing: a start index other than zero (`C64_start_index_counterexample`) and ranks without polygons, on which the export raises (`C64_empty_rank_counterexample`).

**C65**

* `C65_nested_counterexample`: **C65 (counterexample)**: the map of a group inside another group is filed under its bare name at the root: asking for its path raises, and when two groups contain a group of the same name the second one's map is dropped.
* `C65_group_maps_partial`: **C65 (partial)**: for metadata whose groups have distinct names and no nested groups, the map created from the metadata returns for every group the map of that group, and for the root that of the root. Missing, because false: nested groups (`C65_nested_counterexample`).

**C66**

* `C66_other_rank_counterexample`: C66 is false for failures of other ranks: rank 1 fails and rank 0 returns; the partially written directory stays.
* `C66_overwrite_counterexample`: C66 is false with `env.OVERWRITE`: the previous output is removed before the run and lost when the run fails.
* `C66_ranks_wait_counterexample`: C66: when the directory is refused on rank 0, the other ranks never get past the barrier, whatever the schedule.
* `C66_directory_partial`: C66 (partial: failures of rank 0 only). Whatever the ranks do, however their steps interleave and wherever the run is stopped: the output directory is gone once rank 0 has failed, and is there as long as it has not.
* `C66_serial_partial`: C66 on one process (partial: the previous output of an overwriting run). For every list of file operations in the output directory, with a failure of any kind at any point: a run that fails raises the exception of the failure and leaves no output directory, a run that succeeds leaves exactly the files written, and every other directory is as it was.

**C67**

* `C67_nested_counterexample`: C67 is false for a run inside another one: the inner run frees the communicator the outer one is using.
* `C67_other_scope_counterexample`: C67 is false for an engine made in one scope and used in another: the second scope's communicator is not restored.

**C68**

* `C68_rotated_pole_counterexample`: C68 is false for a field on a rotated pole and two geometries: the first result is on the rotated pole, the second is not.
* `C68_allow_empty_counterexample`: C68 is false when empty returns are allowed: a selection that is not empty is not aggregated, not regridded and keeps its coordinate system.
* `C68_raw_counterexample`: C68 is false for calculations on raw values without aggregation: the output coordinate system is ignored.
* `C68_independent_partial`: C68 (partial: operations of `PromiseKept`, and one geometry for a rotated pole kept in its own system). For all datasets and geometries: the collections come dataset by dataset, geometry by geometry, up to the first one that selects nothing; each is what the operations promise for its dataset and its geometry on their own, whatever was done before for others.
* `C68_allow_empty_partial`: C68 with empty returns allowed (partial: nothing but the selection is kept): without calculations there is a collection for every dataset and geometry, in order, with exactly the selected cells and the geometry's identifier.

**C69**

* `C69_disjoint_counterexample`: C69 is false in general: with one geometry on each of two ranks, the second geometry comes out empty.
* `C69_parallel_partial`: C69 (partial: every geometry but the last meets the part of every rank). On any number of ranks the cells selected for a geometry are those selected from the whole field, in order.

**C70**

* `C70_columns_counterexample`: C70 is false when the collections have different columns: the values of the second are written to CSV under the names of the first, without an error (two datasets with differently named variables).
* `C70_fields_counterexample`: C70 is false when the first collection has several fields: each creates the file anew, and only the last is kept.
* `C70_geojson_counterexample`: C70 is false for GeoJSON: with several collections (one per geometry) or several ranks only the last part is kept.
* `C70_truncation_counterexample`: C70 is false for shapefiles when two column names have the same first ten characters: one value is lost.
* `C70_empty_rank_counterexample`: C70 is false when a rank has no records: taking the first record for the names of the columns fails.
* `C70_records_partial`: C70: written to CSV or a shapefile from any number of ranks, and read back, the records of all collections come in order with all their values, if every collection has one field, all records have the same columns and every rank has a record. Partial: see the counterexamples below for collections with other columns or several fields, for column names with equal first ten characters and for GeoJSON; `C70_empty_rank_counterexample` for ranks without records.

**C71**

* `C71_refused_kept_counterexample`: False in general: a refused assignment does not leave the object as it was. The value stays, and with it a combination that breaks the rules; `execute` does not validate again.
* `C71_sticky_crs_counterexample`: False in general: with data on a rotated pole, switching aggregation on and off again leaves the output coordinate system changed, so the result is not that of operations built without it.
* `C71_mixed_calculations_counterexample`: False in general: whether calculations are checked against `calc_grouping` depends on their order. A mean without a grouping is refused, as documented, unless an expression follows it; an expression with a grouping is refused unless a function follows it.
* `C71_second_use_counterexample`: False in general: of two uses of a multivariate function only the first is checked for its variables.
* `C71_geojson_multivariate_counterexample`: False in general: a multivariate function over several datasets may be written to netCDF but not to GeoJSON, although the GeoJSON rule makes the same exception: the classes are compared, not tested for inheritance.
* `C71_error_kind_counterexample`: False in general: not every refusal is a validation error. A slice with a geometry is an assertion error, a duration without a grouping a type error, and a multivariate function lacking one of three variables a key error.
* `C71_attribute_error_counterexample`: False in general: assigning `None` to the regridding options, which are nullable, is not refused but removes the argument's checks: from then on any option is accepted. A misspelt argument name is accepted as well.
* `C71_constructor_only_counterexample`: False in general: what the constructor takes, an assignment need not take. The old names of two output formats and slices by dimension name are accepted by the constructor only.
* `C71_construct_partial`: Constructing operations succeeds exactly if the arguments, as the object then holds them, obey the documented rules. Missing: calculations mixing expressions and functions, a multivariate function used twice or written to GeoJSON from several datasets, and an empty list of calculations; the rules are not enforced as documented there.
* `C71_assign_partial`: After any history of construction and assignments, refused or not, the next assignment is accepted exactly if the object then obeys the documented rules: no invalid combination is ever accepted and no valid one refused. Missing: as for construction.
* `C71_output_crs_partial`: Without data on a rotated pole the output coordinate system, too, is the one given last. Missing: rotated pole data, where validation overwrites it.
* `C71_order_partial`: The order in which different arguments are given does not matter, neither in the constructor nor in assignments, and assigning arguments one after the other leads to the object the constructor makes when it is given all of them at once; the verdict of the last assignment is the constructor's. Missing: data on a rotated pole.
* `C71_bad_value_partial`: Assigning to an argument whose own check does not fail with an attribute error: if the value is accepted, reading gives the parsed value; if it is refused, the exception is raised and everything is as before; other attributes are untouched. Missing: attribute errors and names that are not arguments.
* `C71_constructor_alike_partial`: What both take, they take alike. Missing: the old format names and dictionary slices.
* `C71_error_kind_partial`: A refusal is a validation error, except for a slice together with a geometry, a duration without a grouping and a multivariate function that is given two or more of its variables but not all.

**C72**

* `C72_null_counterexample`: False in general: a null property is not masked but reads as the column's fill value; so does a property a later record lacks.
* `C72_first_decides_counterexample`: False in general: the first record decides the columns' types. A fraction after a whole number loses its fraction, a name after a null is refused, and a property the first record lacks is refused.
* `C72_identifier_counterexample`: False in general: identifiers given by later records are replaced by counters if the first record has none.
* `C72_string_width_counterexample`: False in general: without a schema the width of a name column in netCDF is that of the first record's name, so a longer name cannot be written.
* `C72_dictionary_crs_counterexample`: False in general: geometry dictionaries with different coordinate systems all get that of the last.
* `C72_dictionary_identifier_counterexample`: False in general: identifiers filled in for dictionaries without properties may repeat one given by another.
* `C72_values_partial`: Whatever the records, if they are accepted every property with a value that fits its column is read back unchanged, at the position of its record, and every record's geometry is there in order. Missing: values of another kind than the column's, and properties that are null or absent (see the counterexamples).
* `C72_records_partial`: Records with the same properties of the same kinds are accepted, and the field holds each record's geometry, identifier and property values at its position; without an identifier property the identifiers count from one. Missing: records that differ in their properties or have null values.
* `C72_dictionaries_partial`: Geometry dictionaries without properties, all with the same coordinate system, become selection geometries in order with that coordinate system and identifiers counting from one. Missing: dictionaries with properties (these are records as above) and with different coordinate systems.

**C73**

* `C73_both_counterexample`: False in general: with identifiers and a condition the identifiers are ignored, while `len` ignores the condition.
* `C73_len_counterexample`: False in general: `len` counts identifiers that are not in the file, and is not defined for a slice.
* `C73_slice_counterexample`: False in general: negative positions and a stop before the start select what they should not.
* `C73_array_counterexample`: False in general: a boolean array selects the first two features over and over, and positions out of order select everything between.
* `C73_start_stop_counterexample`: False as documented: a two-element sequence is not a start and a stop but two positions.
* `C73_same_key_counterexample`: False in general: of two files with the same name in different directories the second is listed but never found.
* `C73_select_partial`: Iterating over a file yields, in file order, the records of exactly the features with a selected identifier, or of exactly those that satisfy the condition; with nothing selected it raises an error. Missing: identifiers and a condition together, an empty list of identifiers, and slices (`C73_slice_partial`).
* `C73_slice_partial`: Iterating with a slice yields the records of exactly the features at those positions, as Python and NumPy count them. Missing: negative positions, a stop before the start, a slice without a start, boolean arrays, positions out of order, numbered positions in a file geodatabase or in a file that is not numbered from zero.
* `C73_fields_partial`: As fields: one per selected feature, with its geometry, its identifier and its attribute values, provided these are of the kinds the file declares. Missing: null attributes (`C72_null_counterexample`).
* `C73_len_partial`: `len` of an iterator is the number of records iterating yields, if every selected identifier is in the file exactly once and asked for once. Missing: identifiers that are absent or asked for twice, identifiers together with a condition, slices.

**C74**

* `C74_stale_counterexample`: False in general: the condition, the identifier's name and the aggregation are not passed on when they are assigned after construction; the geometry assigned next still uses the old ones.
* `C74_iterator_counterexample`: False in general: an iterator's own identifiers are dropped, so all of the file's geometries are used.
* `C74_metadata_counterexample`: False in general: after a file, a box is described as that file, and custom geometries after a box as that box.
* `C74_numbers_counterexample`: False in general: text with three numbers is taken for the name of a file, and a list of three numbers raises the wrong kind of error.
* `C74_shared_counterexample`: False in general: two operations constructed from one parameter object share it, so the second's identifiers replace the first's.
* `C74_used_partial`: After construction and any history of assignments of geometries and of identifiers to select, the geometries used are those that the geometry last accepted stands for, with the identifiers last selected. Missing: assigning the condition, the identifier's name or the aggregation afterwards; iterators with identifiers of their own; text with other than two or four numbers (see the counterexamples).
* `C74_accepts_partial`: Which geometries are accepted does not depend on the selection arguments, and construction accepts exactly those.
* `C74_metadata_partial`: After construction and any history of assignments the metadata describes the geometry last accepted, provided it is a file, or numbers with no file before, or other geometries with neither before. Missing: a box or other geometry assigned after a file (see the counterexample).

**C75**

* `C75_exponent_counterexample`: A number written with an exponent counts as a variable: `1e5*tas` is taken for a function of two variables, and then refused.
* `C75_name_counterexample`: Names of functions are replaced inside the names of variables: the variable `log_tas` is looked up as `np.log_tas`.
* `C75_space_counterexample`: With spaces around the operators nothing is substituted: the expression accepted as one of `tas` and `pr` refers to names that do not exist when it is evaluated.
* `C75_argument_counterexample`: A variable after a comma is not substituted.
* `C75_exec_counterexample`: A variable with the name under which another is looked up is looked up twice: `_exec_tas` next to `tas`.
* `C75_expression_partial`: An expression whose right side is written without spaces and in which no function name is part of another word is turned into the expression in which each function and each variable, and nothing else, is replaced; the output is named by the left side.

**C76**

* `C76_same_name_counterexample`: Two datasets whose fields have the same name, which is that of the variable unless given: the second is grouped by the times of the first.
* `C76_two_texts_counterexample`: Of several calculations given as text only the first is carried out, again and again, which fails: its name is taken.
* `C76_text_second_counterexample`: A calculation given as text after another one is refused: the other one is read as text.
* `C76_daily_counterexample`: A calculation after one that brings its own grouping is grouped like it, although no grouping is asked for; before it, it is not grouped.
* `C76_names_counterexample`: Different names of calculations do not suffice: `a` of `b_c` and `a_b` of `c` have the same result name.
* `C76_results_partial`: The calculations of an engine on any sequence of collections, when fields with the same name have the same times and no calculation is given as text or brings its own grouping: each field ends with the results of each calculation for each of its data variables, grouped by its own times, in place of the data variables.
* `C76_text_partial`: A single calculation given as text puts one variable, named by its left side, in place of the data variables.

**C77**

* `C77_override_counterexample`: A function appended under a key of the library is not used: creating a registry puts the library's back.
* `C77_malformed_counterexample`: A keyword that is not `name~value` makes all keywords disappear: the percentile asked for is not the one computed.
* `C77_case_counterexample`: Text is put in lower case: the alias is another one, and functions with capital letters cannot be asked for.
* `C77_variable_case_counterexample`: The names of variables given to a multivariate function in a dictionary are put in lower case too.
* `C77_error_counterexample`: Text in a list that names a function, or `none` among other calculations, is a `TypeError`; text to be evaluated in a dictionary is a `KeyError`.
* `C77_alias_counterexample`: Aliases are not compared if the last calculation is text to be evaluated; two such texts are refused if it is not.
* `C77_unknown_counterexample`: Functions without parameters accept any keyword; unknown keywords are accepted before text to be evaluated.
* `C77_truth_counterexample`: The text `false` is true.
* `C77_value_counterexample`: A value that is no number is accepted as the value of a numerical parameter; the function is what fails.
* `C77_registry_partial`: Whatever registries were created before, a key that is none of the library's (nor ICCLIM's) stands for the function with that key a program appended last. `_partial`: for keys of the library see the counterexample.
* `C77_dictionaries_partial`: Dictionaries are accepted exactly if every function is known and takes the parameters given, and the aliases are all different; the value then says what the dictionaries say, in order. What is refused is refused with a validation error. `_partial`: text values in lower case (see the counterexample) and no text to be evaluated among the functions.
* `C77_text_partial`: Calculations written in text, separated by bars, are accepted exactly if every function is known and takes the parameters given, and the aliases are all different; the value then says what the text says, in order. What is refused is refused with a validation error. `_partial`: lower case text whose keywords are all well formed (see the counterexamples).
* `C77_other_key_partial`: A dictionary with a key that means nothing is refused, whatever the other dictionaries are. `_partial`: no text to be evaluated is among the calculations; if it is the last one nothing is checked (see `C77_unknown_counterexample`).
* `C77_parameters_partial`: A function receives each parameter under its name with the value given, as a value of the type in its definition; variables and parameters without a type are passed on as they are. `_partial`: text for truth values and values that are not of the type are not treated as they should be, see the counterexamples.

**C78**

* `C78_unordered_counterexample`: C78 is false for positions that are not in order: after slicing with `[0, 3, 1]` and with `1:3` two elements are to be seen, and are if the value was read before; reading now gives three.
* `C78_two_arrays_counterexample`: C78 is false with two index arrays: the unread variable is sliced along each axis, the read one is not.
* `C78_no_source_counterexample`: C78 is false for a dimension without a source index: sliced and read, it gives the first elements instead of those asked for.
* `C78_removed_counterexample`: C78 is false for removed values: what is seen afterwards depends on whether the variable had been read.
* `C78_deferred_partial`: **C78.** Whatever is sliced, read, loaded or overwritten, and in whatever order, a caller sees the values they would have seen had the variable been read at the start. Missing: indices that keep nothing or reorder, slices with two index arrays, removed values, dimensions without a source index; see the counterexamples.

**C79**

* `C79_mask_counterexample`: C79 is false where elements are masked, but none of rank 0's: the file of several processes has no fill value and holds the library's default in place of the masked element, the file of one process has one and holds that.
* `C79_file_only_counterexample`: C79 is false if only the structure of the file is asked for: several processes give the variable a fill value, one does not.
* `C79_extra_variable_counterexample`: C79 is false if a rank has a variable that rank 0 has not: the file has no such variable when that rank's turn comes, the rank raises an exception, and rank 0 waits for it forever.
* `C79_fixed_size_counterexample`: C79 is false if an unlimited dimension is to be given a fixed size and is distributed: the file gets rank 0's size, rank 1 raises an exception when its turn comes, and rank 0 waits for it forever.
* `C79_parallel_partial`: **C79.** If several processes write a dataset that is distributed over them, then in whatever order they proceed none of them raises an exception or waits forever, no two of them have the file open at the same time, and the file in the end is the one that a single process with the whole dataset writes. It holds every element of every variable. Missing: the options for unlimited dimensions and for files without data, and masked elements where those of rank 0 are not; see the counterexamples.

**C80**

* `C80_transposed_counterexample`: **C80, counterexample.** Two-dimensional coordinates whose first dimension is that of x: the map has the dimension of y for x, and that of x for y.
* `C80_points_counterexample`: **C80, counterexample.** A variable on time and a list of points is not a data variable, although time, longitude and latitude are found.
* `C80_forecast_counterexample`: **C80, counterexample.** With times of two dimensions, as for forecasts, a variable with all dimensions of time, y and x is not a data variable, and one that has no dimension of y is.
* `C80_scalar_height_counterexample`: **C80, counterexample.** A height without dimensions is passed over because it has none, and then taken because of its name.
* `C80_scalar_counterexample`: **C80, counterexample.** A file with one place, whose longitude and latitude have no dimensions, cannot be distributed.
* `C80_user_bounds_counterexample`: **C80, counterexample.** The user names a coordinate variable and its bounds but not its dimension: the bounds are forgotten.
* `C80_dimensions_partial`: **C80, in part.** The dimensions of an axis are those of its coordinate variable; of a coordinate variable of x or y with several dimensions it is the second or the first. What is missing: that this is the right one; see `C80_transposed_counterexample`.
* `C80_data_variables_partial`: **C80, in part.** If time, x and y each have one dimension and these are different, the data variables are the variables with all three dimensions, in the order of the file. What is missing: data variables on other coordinates; see the counterexamples.
* `C80_distributed_partial`: **C80, in part.** The dimension that is distributed over the processes is the longer of those of x and y, and that of x if they are equally long; with the other decomposition it is that of x. What is missing: coordinates without dimensions, for which this is an error; see `C80_scalar_counterexample`.
* `C80_user_map_partial`: **C80, in part.** A dimension map given by the user keeps its coordinate variables and the dimensions that are given; dimensions that are missing are those of the variable in the file. The bounds are kept if the dimensions are given. What is missing: the bounds in the other case; see `C80_user_bounds_counterexample`.

**C81**

* `C81_short_rename_counterexample`: **C81, counterexample.** Fewer new names than variables are accepted: the variables without a new name keep theirs, but are data variables no more.
* `C81_given_metadata_counterexample`: **C81, counterexample.** With metadata given by the user the variables are not renamed, but the data variables are the new names: no variable has that name.
* `C81_used_name_counterexample`: **C81, counterexample.** A new name that another variable has: the variable asked for is lost, and the other takes its place.
* `C81_two_files_counterexample`: **C81, counterexample.** Two shapefiles, or two files with comma-separated values, have no driver, although each has one.
* `C81_path_counterexample`: **C81, counterexample.** A file whose name ends in `.csv` is taken for netCDF if `.nc` is anywhere in its path, or if it is remote.
* `C81_unknown_driver_counterexample`: **C81, counterexample.** A driver that does not exist is not refused.
* `C81_directory_counterexample`: **C81, counterexample.** A file that is in two directories is taken from the last.
* `C81_rename_partial`: **C81, in part.** Renaming: the field has every variable of the file, those asked for under their new names and the others under their own, and the data variables are the new names. What is missing: lists of other lengths, names that are in use, and metadata that are given; see the counterexamples.
* `C81_driver_key_partial`: **C81, in part.** A driver is chosen by its key. What is missing: keys that do not exist are not refused; see `C81_unknown_driver_counterexample`.
* `C81_uri_partial`: **C81, in part.** A file that exists or is remote is used as it is; else it is looked for in the directories, and if one of them has it the first path found there is used; if there is none it is refused. What is missing: with several directories that have it, the first should be used; see `C81_directory_counterexample`.

**C82**

* `C82_radius_counterexample`: **C82.** The shape of the Earth in the file is ignored, for spherical grid mappings as for projections.
* `C82_sphere_counterexample`: **C82.** The radius of a `Spherical` coordinate system is not read back.
* `C82_equal_counterexample`: **C82.** Two rotated poles compare equal, wherever the poles are.
* `C82_assigned_counterexample`: **C82.** A coordinate system that is asked for is not the one read back when the file has a spherical grid mapping of another name: the file written has both, and cannot be opened.
* `C82_given_counterexample`: **C82.** A coordinate system that is asked for does not help if that of the file cannot be read.
* `C82_history_counterexample`: **C82.** After a file with a rotated pole was opened, every file written has that rotated pole, whatever its field has.
* `C82_transformed_counterexample`: **C82.** A field that is transformed to a projection is written to a file that cannot be opened.
* `C82_units_counterexample`: **C82.** Longitudes that were computed from a projection still have its units and standard names.
* `C82_no_data_counterexample`: **C82.** Without data variables, a projection is read back as a sphere.
* `C82_roundtrip_partial`: **C82.** A projection or rotated pole that is written is read back as it is: class, name, parameters and projection coordinates. Missing: other coordinate systems do not keep all parameters, see the counterexamples below.
* `C82_roundtrip_spherical_partial`: **C82.** The spherical grid mapping is read back.
* `C82_roundtrip_text_partial`: **C82.** Any other coordinate system is read back from its PROJ.4 text, with its name.
* `C82_history_partial`: **C82.** A file has the coordinate system of the field, whatever was done before, as long as no file with a rotated pole was opened. Missing: this is false after such a file, see `C82_history_counterexample`.

**C83**

* `C83_radians_counterexample`: **C83.** A grid in radians can be transformed to Cartesian coordinates, but transforming one to a system in radians fails after the coordinates were replaced.
* `C83_pole_projected_counterexample`: **C83.** Full statement false: a grid with a rotated pole transformed to a projected system only gets the longitudes and latitudes, though its coordinate system is the projected one.
* `C83_to_pole_counterexample`: **C83.** A projected grid cannot be transformed to a rotated pole: an assertion fails.
* `C83_pole_geometry_counterexample`: **C83.** Full statement false: geometries with a rotated pole are taken for ones of an oblique Mercator projection, and two rotated poles for the same.
* `C83_origin_counterexample`: **C83.** The origin given to `update_crs` does not replace the grid's own coordinate system: a grid with a rotated pole fails with any other origin, and one of a known system is taken for an oblique Mercator projection if the origin is a rotated pole.
* `C83_angular_units_counterexample`: **C83.** Radians are not converted: coordinates in radians transformed to degrees on the same sphere stay as they are.
* `C83_range_counterexample`: **C83.** Full statement false: the longitude of a pole is lost, longitudes below -180 degrees are accepted and come back 360 degrees larger, and with a negative level the point comes back on the other side of the Earth.
* `C83_holes_counterexample`: **C83.** Full statement false: a polygon transformed to Cartesian coordinates or back loses its holes; without heights it gets heights of one.
* `C83_half_counterexample`: **C83.** Full statement false: a field with a grid and several geometries is half transformed to Cartesian coordinates: the grid and the field's coordinate system change, then an assertion fails and the geometries stay.
* `C83_cartesian_counterexample`: **C83.** Ellipsoids cannot be transformed to Cartesian coordinates or back, and corners without levels cannot be transformed.
* `C83_places_partial`: **C83.** A grid transformed between coordinate systems keeps the place of every centre and corner; its levels stay. Corners are removed if one of the systems has a rotated pole. What is missing: rotated poles with other systems than spheres (`C83_pole_projected_counterexample`), and an origin that differs from the grid's own (`C83_origin_counterexample`).
* `C83_geometry_places_partial`: **C83.** Geometries transformed between known coordinate systems keep the place of every point of their exteriors and holes, and their heights. What is missing: rotated poles (`C83_pole_geometry_counterexample`).
* `C83_field_partial`: **C83.** However often a field is transformed between known coordinate systems, nothing fails, and the centres and corners of its grid and its geometries are in the last system and at the places where they were. What is missing: rotated poles and Cartesian systems.

**C84**

* `C84_slices_counterexample`: **C84 fails** for masks that change from slice to slice: a value masked in the second slice only enters the average (505 instead of 10), though this ESMF respects the masks it is given.
* `C84_unmasked_counterexample`: **C84 fails** without `split`, and for variables that have latitude and longitude only: cells the destination hides and ESMF does not map are not masked, they show the fill value.
* `C84_fill_counterexample`: **C84 fails** for mapped values equal to the fill value: with `fill_value=0` the zeros of the result are masked, and a slice of zeros raises the error that nothing overlaps; all at once it does not.
* `C84_value_mask_counterexample`: **C84 fails** for a mask given by the user ("with same shape as" the source grid): it is laid over the destination too. Regridding to a grid of another shape is refused; with the same shape, cells of the destination are masked.
* `C84_order_counterexample`: **C84 fails** for variables stored with longitude before latitude: on a square grid the values come out transposed, on other grids they are refused.
* `C84_transposed_counterexample`: **C84 fails** for coordinate matrices stored with longitude before latitude: on a square grid ESMF has the centres of other cells.
* `C84_no_variables_counterexample`: **C84 fails** for fields without data variables: an unbound local variable, although the code means to use the grid instead.
* `C84_greenwich_counterexample`: **C84 fails** for regional grids across Greenwich: longitudes from -10 to 10 make a periodic ESMF grid, and the last cell, from 9 to 10, has for ESMF its eastern corners at -10.
* `C84_zero_counterexample`: **C84 fails** for a global grid of two columns, which is not taken to be periodic, and the resolution is wrong for coordinates on both sides of zero.
* `C84_operation_counterexample`: **C84 fails** for the source of the operation: it is left in the spherical system (coordinate systems 1 and 0), even with `revert_dst_crs`; so is the destination without.
* `C84_values_partial`: **C84 (partial).** What the values of a regridded field are, when everything is stored with latitude before longitude: each is the sum of the values of the same slice of the same variable in the cells ESMF names, with ESMF's weights for the source and destination grids; cells ESMF does not map have the fill value. The source grid ESMF sees has the centres of the field's grid, and its usable cells are those hidden neither by the spatial mask nor by the first slice of the first variable; the destination grid is that of the destination. The method is the one asked for; `auto` is conservative when both grids have bounds.
* `C84_given_mask_partial`: **C84 (partial).** With a mask given by the user, it replaces the mask of the first variable: the cells of the source grid ESMF may use are those hidden neither by it nor by the spatial mask. The same holds of the destination, which is missing in the claim (`C84_value_mask_counterexample`); both grids have the shape of the mask.
* `C84_hidden_partial`: **C84 (partial).** Masked source values do not enter the result, provided all slices of all variables have the same mask and ESMF respects the masks it is given: changing the values under the mask changes nothing.
* `C84_unmapped_partial`: **C84 (partial).** With `split` (the default), for variables with a dimension besides latitude and longitude, cells of the destination that ESMF does not map are masked, among them those the destination's mask hides; cells that are masked hold the fill value.
* `C84_corners_partial`: **C84 (partial).** The cells ESMF sees have the corners of the grid's cells, up to whole turns, if neighbouring cells share corners and a grid taken to be periodic really goes around the globe.
* `C84_constant_partial`: **C84 (partial).** If ESMF's weights of each cell add up to one, a constant slice stays constant wherever it is mapped.

**C85**

* `C85_copy_counterexample`: **C85, against the claim.** Elements assigned to a copy of a variable are assigned to the variable too.
* `C85_slice_counterexample`: **C85, against the claim.** The same for a slice by a range: the second element of `x[2:4]` is the fourth of `x`.
* `C85_cascade_counterexample`: **C85, against the claim.** A mask that is set on a copy and reaches the other variables of the copy masks the elements of the original's variables too, if these had a mask.
* `C85_attributes_counterexample`: **C85, against the claim.** An attribute set on a copy of a collection is set on the collection too.
* `C85_siblings_counterexample`: **C85, against the claim.** The other variables in the collection of a deep copy share their arrays with the original's.
* `C85_member_counterexample`: **C85, against the claim.** The deep copy of a variable with bounds is not the variable its own collection has under its name: the values set on it are not in the slices made from it.
* `C85_deepcopy_partial`: **C85 (part).** A deep copy of a variable has the same contents and shares no memory with any variable that existed; the same is true of its bounds. Nothing that existed is changed. Missing: the other variables of the copy's collection share their arrays (`C85_siblings_counterexample`), and the copy of a variable with bounds is not the variable its own collection has (`C85_member_counterexample`).
* `C85_session_partial`: **C85.** What is done to a deep copy does not reach any variable that existed, and what is done to these does not reach the copy.
* `C85_member_partial`: **C85 (part).** The deep copy of a variable without bounds is the variable that its collection has under its name.

**C86**

* `C86_union_dimensions_counterexample`: **C86 fails** for a union over some of the dimensions: the geometry for each index along the dimensions that stay is that of the first index.
* `C86_sequence_counterexample`: **C86 fails**: the same two variables in the other order are refused, because the second one is given the dimensions of the first.
* `C86_missing_counterexample`: **C86 fails**: at a time at which all data are missing, the average is the number zero, and not missing.
* `C86_order_counterexample`: **C86 fails** for a variable with the dimensions of the geometries in another order: its values get the weights of other cells. With a further dimension the request is refused.
* `C86_area_counterexample`: **C86 fails** for the mean by area: a geometry without area among others is given the weight one, which may be more than theirs.
* `C86_root_counterexample`: **C86 fails** on several processes: the root counts with the area of the union of all. Two geometries of one size with the values 0 and 3 have the mean 3/2 on one process, and 1 on two.
* `C86_times_counterexample`: **C86 fails** on several processes: the weights are sorted with the values of one time and used so for the next. The same data at two times have different averages.
* `C86_ranks_missing_counterexample`: **C86 fails** on several processes: where the data of one process are missing, zero takes part in the mean.
* `C86_mean_partial`: **C86, partial.** A named variable that has other dimensions than those of the geometries has, at each index along these, the mean of its values that are not masked, at geometries that are not masked, weighted as documented: by area, and by one for a geometry without area. The result is not masked. Missing: an index where there is no such value (see `C86_missing_counterexample`).
* `C86_mean_same_partial`: **C86, partial.** A named variable that has the dimensions of the geometries, in this order, has one element: the mean of its values that are not masked, at geometries that are not masked, weighted as documented. It is masked if there is no such value. Missing: the same dimensions in another order (see `C86_order_counterexample`).
* `C86_ranks_between_partial`: **C86, partial.** On several processes, the average of a named variable lies between bounds of all the values that count, on all processes, if each process has one; so where these are equal, it is their common value. Missing: that it is the mean with the weights of all geometries (see the counterexamples below).

**C87**

* `C87_index_counterexample`: C87 (defect): two lines that share an end, and a point there. The point is in the interior of the geometry, so it is selected without an index; with one it only touches each part, and it is masked.
* `C87_all_counterexample`: C87 (defect): when all elements of a variable of one dimension are selected, the selection fails with an `IndexError`, for every such variable.
* `C87_hint_counterexample`: C87 (defect): a hint mask replaces the mask of the variable in the search. Here the only element that meets the geometry is masked; with a hint that excludes nothing the selection does not raise: it returns that masked element.
* `C87_clip_slice_counterexample`: C87 (defect): without the check and with the slice, `get_intersection` always fails.
* `C87_nearest_processes_counterexample`: C87 (defect): on two processes each returns the nearest of its own elements.
* `C87_buffer_counterexample`: C87 (defect): without a mask only the first element of a variable of one dimension is buffered, the others are lost; with two dimensions it fails.
* `C87_touch_counterexample`: C87 (defect): by default a geometry that only touches is left out by a selection, as documented, but not by clipping: here the second geometry, of which only a point is left.
* `C87_grid_optimized_counterexample`: C87 (defect): the optimized selection replaces the mask of the grid: the masked cell, which is near, is not masked in the result (while the selection that is not optimized keeps it masked).
* `C87_grid_hint_counterexample`: C87 (defect): a mask given by the caller replaces the mask of the grid, so that the masked cell is selected; and the caller's array is overwritten with the mask of the result.
* `C87_index_partial`: C87 (part): the mask is the same with an index as without, for every geometry whose interior is that of its parts, and for every geometry when touching is enough. For lines that share ends it is not (`C87_index_counterexample`).
* `C87_select_partial`: C87 (part): for every geometry variable distributed in blocks over any number of processes, with or without an index, `get_intersects` raises when no element is selected; otherwise its slice is the smallest rectangle with all selected elements, each process keeps exactly its elements in it with their geometries, and the elements that are not masked are exactly the selected ones. Missing: variables of one dimension with a process all of whose elements are selected (`C87_all_counterexample`), and hint masks (`C87_hint_counterexample`).
* `C87_clip_partial`: C87 (part): `get_intersection` selects the same elements as `get_intersects`, with the same slice, and each selected element holds the intersection of its geometry with the subset geometry. The source keeps its geometries; when the operation is in place exactly the selected ones are replaced. Missing: as in `C87_select_partial`.
* `C87_buffer_partial`: C87 (part): with a mask, every element that is not masked is buffered and the others are none. Missing: variables without a mask (`C87_buffer_counterexample`).
* `C87_touch_partial`: C87 (part): when `keep_touches` is given, clipping a field of geometries and selecting from it leave the same elements unmasked, on every process.
* `C87_grid_partial`: C87 (part): for every grid and geometry whose hints miss no chosen cell (C23, C61), and without a hint of the caller, the selection raises when no cell is selected; otherwise the slice is the smallest with all selected cells, the cells in it that are not masked are exactly the selected ones, and clipping gives exactly these their intersections. Missing: the optimized selection and masks of the caller (`C87_grid_optimized_counterexample`, `C87_grid_hint_counterexample`), several processes.
* `C87_grid_optimized_partial`: C87 (part): the optimized selection from a grid without a mask, by the hints alone: it raises when no cell is near, otherwise the slice is the smallest with the cells that are near, and the cells in it that are not masked are exactly these. Missing: grids with a mask (`C87_grid_optimized_counterexample`).

**C88**

* `C88_coarse_counterexample`: C88 (defect): the default buffer is twice the finer spacing, and the source is selected by its centres: when the source is much coarser than the destination, source cells that overlap a destination chunk are missed, and with them their weights (destination cell 11 lies in source cell 2).
* `C88_signed_counterexample`: C88 (defect): the spacing is that of the absolute coordinates: two source cells with centres -1/2 and 1/2 have the spacing zero, and so the default buffer is zero; the weight of a pair that overlaps is lost.
* `C88_mask_counterexample`: C88 (defect): the optimized selection drops the mask of the source: the merged file has weights from a masked cell.
* `C88_outside_counterexample`: C88 (defect): a destination chunk outside of the source stops the run, although the other chunk has weights.
* `C88_template_counterexample`: C88 (defect): a file name template without a place for the number is accepted; the weights of the last chunk are then read for every chunk.
* `C88_rank_counterexample`: C88 (defect): process zero has no part of the second destination chunk, but another process has; the source slices are gathered and the destination slices are not, so that the index file cannot be written.
* `C88_whole_partial`: C88 (part): for every pair of grids with bounds, the source without a mask, and every method whose weights belong to pairs of overlapping cells: if the buffer is at least the reach of the source cells from their centres, and each destination chunk has a cell that overlaps the source and one that is not masked, then writing the chunks and merging their weight files gives the weights of the whole: the same, each as often. Missing: sources that reach further than the buffer (`C88_coarse_counterexample`, `C88_signed_counterexample`), masked sources (`C88_mask_counterexample`), chunks outside of the source (`C88_outside_counterexample`), file names that are not different (`C88_template_counterexample`), dimensions of length one that are split (C62).
* `C88_exact_partial`: C88 (part): without the optimized selection, for every source with bounds and any mask: if the buffer is not negative and the source cells reach no further from their centres than five quarters of the resolution of the source (C23), and each destination chunk has a cell that overlaps a source cell that is not masked, and one that is not masked, then the merged weights are those of the whole. Missing: the same as for `C88_whole_partial`, except masked sources.
* `C88_given_partial`: C88 (part): the buffer or the two resolutions that the caller gives are used: if the given buffer, or twice the smaller of the given resolutions, is at least the reach of the source cells from their centres, the merged weights are those of the whole. Missing: the same as for `C88_whole_partial`.
* `C88_default_partial`: C88 (part): the default buffer is enough for evenly spaced coordinates that are not negative, at least two in each direction, when the source cells extend by half a spacing and the larger source spacing is at most four times the larger destination spacing. Missing: coarser sources (`C88_coarse_counterexample`), coordinates around zero (`C88_signed_counterexample`).
* `C88_index_partial`: C88 (part): the index file gets the slices of all chunks, for any number of processes, if the processes agree and process zero has all destination slices. Missing: process zero without a part of a destination chunk, which happens with a spatial decomposition (`C88_rank_counterexample`).

**C89**

* `C89_units_counterexample`: A time variable that replaces another shows the units of the one before, so that its values denote other dates.
* `C89_collection_counterexample`: A coordinate brings along all variables of the collection it comes from: those of the field with the same names are replaced, here the data variable.
* `C89_same_name_counterexample`: Coordinates with the same name: the second replaces the first for both.
* `C89_rename_counterexample`: Renaming the variable of a coordinate loses the coordinate.
* `C89_rename_data_counterexample`: Renaming a data variable takes it off the list of data variables.
* `C89_remove_bounds_counterexample`: Removing the bounds of a coordinate makes the coordinate unreadable.
* `C89_time_bounds_counterexample`: Bounds set on the time variable of a field are gone when it is read again.
* `C89_time_object_counterexample`: Every access to the time of a field gives another object.
* `C89_crs_counterexample`: A coordinate system that is set without being added can be neither read nor replaced.
* `C89_is_data_counterexample`: A data variable given to a new field is not added when the field has a variable of that name; the other one counts as data.
* `C89_last_set_partial`: In every history of setting coordinates, setting them to `None`, reading them and adding data variables, no call fails, every coordinate is afterwards the variable it was set to last, with its array, dimensions, bounds and (but for time) identity, and the data variables are those added, each as added last. Missing: names shared between coordinates or with data variables, which the counterexamples show to be lost.
* `C89_reads_partial`: Reading coordinates changes none of them: without the reads of a history the field shows the same.
* `C89_attributes_partial`: So a coordinate that was set once since it was last `None` shows the attributes of the variable. Missing: coordinates set again, where the attributes of the variable before are kept (`C89_units_counterexample`).
* `C89_is_data_partial`: The data variables given to a new field are its data variables, in order, if their names are not taken. Missing: names that are (`C89_is_data_counterexample`).
* `C89_crs_partial`: Setting the coordinate system of a field whose current one can be read: it is the one read afterwards, the one before is gone, other variables and the coordinates stay.

**C90**

* `C90_line_counterexample`: C90 (defect): a point in the interior of a line does not only touch it, but when touching is not enough the line has to have the point strictly within its box, and a box of no height has none: nothing is selected.
* `C90_order_counterexample`: C90 (defect): points may have a connectivity, which tells the node of each element. The boxes are tried on the nodes in their own order, so with two elements in the other order the wrong one is selected.
* `C90_depth_counterexample`: C90 (defect): the second point lies far above the geometry. It is not selected when the third is masked, and it is when no point is: masking one point changes whether another is selected.
* `C90_hint_counterexample`: C90 (defect): a mask given by the caller is to exclude points. The first point is excluded and is selected all the same, and the caller's array says afterwards that it is not masked.
* `C90_polygon_hint_counterexample`: C90 (defect): a mask given by the caller is not used for polygons.
* `C90_polygon_box_counterexample`: C90 (defect): the selection of polygons by bounding boxes returns all of them, wherever they are.
* `C90_unsliced_counterexample`: C90 (defect): without slicing the mask is to tell what is selected; nothing is, and the object returned has all elements, none of them masked.
* `C90_touch_counterexample`: C90 (defect): the check is to stop the program when the geometry touches a point. Points on the edge of the square and at its upper left corner touch it, and the selection goes on with them.
* `C90_points_partial`: C90 (part): selecting from points by a geometry without a third coordinate returns exactly the points that are not masked and that the geometry chooses, in order, with their mask, and the slice tells which they are; the geometries of an intersection are those of the points returned, and there are none when no point is. Missing: geometries whose parts lie along an axis when touching is not enough (`C90_line_counterexample`), masks given by the caller (`C90_hint_counterexample`), third coordinates (`C90_depth_counterexample`), and not slicing (`C90_unsliced_counterexample`).
* `C90_depth_partial`: C90 (part): when some process has masked points (and this one has a mask), selecting from points returns exactly those that are not masked, that the geometry chooses in the plane, and that lie in the box and range of third coordinates of some part of it. Missing: objects without masked points (`C90_depth_unmasked`, `C90_depth_counterexample`).
* `C90_hint_partial`: C90 (part): when some process has masked points (and this one has a mask), a mask given by the caller leaves out the points it has: exactly those not masked by either that the geometry chooses are returned. The caller's array is overwritten: it tells the points that were not selected. Missing: objects without masked points (`C90_hint_unmasked`, `C90_hint_counterexample`), and polygons (`C90_polygon_hint_counterexample`).
* `C90_polygons_partial`: C90 (part): selecting from polygons returns exactly those that are not masked and that the geometry chooses, in order, with their mask, whatever the mask given by the caller, which is not changed; the geometries of an intersection are those of the polygons returned. Missing: the mask given by the caller (`C90_polygon_hint_counterexample`), bounding boxes (`C90_polygon_box_counterexample`), and not slicing (`C90_unsliced_counterexample`).

**C91**

* `C91_masked_counterexample`: C91 fails: a masked value enters the percentile, and the result is not masked; a cell that is masked at the first time step only is masked for every calendar day.
* `C91_half_hour_counterexample`: C91 fails: at half past twelve the difference to the full hour of the day before is a day and a half hour, that to the day after less than a day; a window of one day therefore holds the data of two days.
* `C91_even_width_counterexample`: C91 fails: a width of four days selects the days up to two days away, five days.
* `C91_wide_counterexample`: C91 fails for a width of 121 days: 31 December 2003 is sixty days before 29 February 2004 but not in the window of 29 February, although the window of 28 February holds it.
* `C91_error_counterexample`: C91 fails: data of the first year of the calendar raise an error, because the year before does not exist; so does a single time step, and so do several levels or realizations.
* `C91_percentiles_partial`: C91 (partial: two or more time steps, all at the same full hour and none of them in the first or last year of the calendar, no value is missing, the width is odd and at most 119 days): the output has one value for every calendar day of the data, in the order of the year, and the value is the percentile of exactly the data of the days in the window around that calendar day.
* `C91_missing_partial`: C91 (partial, as above): a cell without a value at any time has none for any calendar day.
* `C91_order_partial`: C91 (partial, as above): the result does not depend on the order in which the days of a month are visited.
* `C91_monotone_partial`: C91 (partial, as above): a higher percentile is not smaller.
* `C91_between_partial`: C91 (partial, as above): the results are within the range of the data.
* `C91_frequency_partial`: C91 (partial: no value is missing): the percentile along the time axis.

**C92**

* `C92_set_counterexample`: A value that is set before anything is read is replaced by that of the file when another variable is read.
* `C92_mask_counterexample`: A mask that is set before anything is read is replaced when any column of the file has a null in an integer column, and kept when none has.
* `C92_remove_counterexample`: Removing the value of one variable and reading it again replaces what was set in another.
* `C92_removed_counterexample`: Removing the value of the variable that was read first does not read it again: it is made of fill values.
* `C92_null_counterexample`: Nulls of text and floating point columns are not masked.
* `C92_repeated_counterexample`: Slices with repeated positions: a variable that is read before has the features asked for, a variable that is read afterwards has zeros instead.
* `C92_descending_counterexample`: Positions in descending order give the features in between, in the order of the file.
* `C92_renamed_counterexample`: A variable of an attribute with another name makes every variable of the field unreadable; a geometry variable with another name is full of zeros.
* `C92_date_counterexample`: 
* `C92_schema_counterexample`: A null in the first record makes an integer column, whatever the other records hold.
* `C92_read_partial`: After any history of orderly slices and reading, in any order, every variable shows the features of the file at the positions that are left: attributes by their names, geometries; and exactly the nulls of integer columns are masked. Missing for the full property: values and masks that are set, values that are removed, slices with repeated or descending positions, renamed variables, and nulls of other columns (see the counterexamples).
* `C92_set_partial`: When every variable has its value, setting and reading values and masks behaves as for independent variables: what is read is what was set last, or what was there. Missing for the full property: variables that are not read yet (see the counterexamples).
* `C92_schema_partial`: A file that is written has columns that read back with the kinds of the values of the first record, if none of these is null.

**C93**

* `C93_straddle_counterexample`: A geometry from the western hemisphere to beyond 180 degrees is not brought to the convention of an unwrapped field: the place at 350 degrees is not in it, although it is the place at 10 degrees west.
* `C93_hole_counterexample`: A hole is lost: a place in it is in the wrapped polygon.
* `C93_outside_counterexample`: What is beyond 360 degrees, or beyond 180 degrees west, is lost when the geometry is cut.
* `C93_touch_counterexample`: Two parts, of which one ends at 180 degrees and the other is east of it: cutting leaves a line, and an error is raised.
* `C93_corner_counterexample`: A part that touches the western box in a point: the points are not dropped as the lines are, and an error is raised.
* `C93_ranks_counterexample`: With longitudes on both sides, one process finds another state than two processes; with an empty process the state may be undefined, depending on the order of a set.
* `C93_variable_counterexample`: The first geometry that tells decides for all: with geometries in both conventions nothing is wrapped, unless it is forced.
* `C93_box_counterexample`: A box that goes beyond 360 degrees is not prepared: the places just east of 0 degrees are missed. A box that is all in the western hemisphere but said to be unwrapped is made too large.
* `C93_grid_counterexample`: A grid is asked with the box as it is, unstructured coordinates with the prepared boxes: the same box misses, on a grid, what it finds among unstructured coordinates.
* `C93_wrap_partial`: Wrapping polygons without holes, between 180 west and 360 east: a place is in the result exactly when it, or the same place one turn further east, was in the geometry, and the result is between 180 west and 180 east. (Places on the seam and at the poles are left out.) Missing for the full property: holes, which are lost, coordinates outside of these longitudes, and touching geometries for which an error is raised (see the counterexamples).
* `C93_unwrap_partial`: Unwrapping polygons without holes, between 180 west and 180 east.
* `C93_roundtrip_partial`: Unwrapping what was wrapped gives back the places between 0 and 360 degrees.
* `C93_match_partial`: Before a selection the geometry is brought to the convention of the field: a place of the field is then in it exactly when the same place, in any convention, is in the geometry given; unless the geometry goes from the western hemisphere to beyond 180 degrees.
* `C93_ranks_partial`: Several processes find the state that one process would find, if the longitudes are not both negative and above 180, whatever the order of the set they are gathered in.
* `C93_variable_partial`: Wrapping a variable of geometries: if no geometry is on the western side, every geometry that is not masked is wrapped by itself; unwrapping likewise if none is beyond 180 degrees.
* `C93_box_partial`: A bounding box that starts in the western hemisphere is prepared for unwrapped coordinates: a place between 0 and 360 degrees is in the prepared boxes exactly when it, or the same place one turn further west, is in the box.

**C94**

* `C94_first_masked_counterexample`: A record is lost where the first data variable is masked, though the second has a value there; with the variables in the other order it is kept.
* `C94_primary_mask_counterexample`: Naming another variable as primary mask changes nothing: the first data variable still decides.
* `C94_melted_variable_counterexample`: Melted records of a chosen variable fail.
* `C94_melted_alone_counterexample`: A field with one data variable and nothing else has no melted records.
* `C94_name_counterexample`: A data variable called `TIME` takes the place of the time.
* `C94_realization_bounds_counterexample`: A realization with bounds cannot be iterated, though a time with bounds can.
* `C94_dataset_counterexample`: A coordinate made from a dataset cannot have repeated columns.
* `C94_repeated_counterexample`: Of columns repeated for several data variables, only those of the last are shown.
* `C94_masked_bounds_counterexample`: A masked time is not shown, but its bounds are.
* `C94_strict_counterexample`: Strict records of a field with times need year, month and day, which only tabular drivers make.
* `C94_records_partial`: C94 (one record per position). With standard names, a field yields one record for every position of the first data variable that is not left out, in row-major order, each with the geometry of the position. A record has exactly these columns: the repeated ones, the value of every data variable and follower under its name, and identifier, realization, time and level under their standard names. Missing from the full property: other masked values should not decide which records there are, and names that clash should not hide columns (see the counterexamples below).
* `C94_melted_partial`: C94 (melted). Melted, a field yields for every position that is not left out one record per data variable, in order: its name, its value, the columns repeated for it, and the followers and coordinates as before. The data variables have repeated columns of the same names. Missing from the full property: a field whose only variable is melted yields nothing (`C94_melted_alone_counterexample`).

**C95**

* `C95_order_counterexample`: C95 is false of the order of groups if years are not grouped on: from July 2000 to June 2001, the months in order are not in the order of their representative times.
* `C95_month_bounds_counterexample`: C95 is false of representatives inside their bounds: the mean of January has bounds from the end of 1999, and is represented by a time a year before, outside of its bounds.
* `C95_incomplete_month_counterexample`: C95 is false of representatives inside their bounds also for months of years: three days at the beginning of January are represented by the 16th, after the last of them.
* `C95_day_counterexample`: C95 is false of representatives of days: the 31st of March with bounds from February is represented by the 31st of February.
* `C95_season_bounds_counterexample`: C95 is false of seasons of times with bounds: October, November and December with bounds until the 1st of January are represented by May of the first of the two years, as April, May and June are.
* `C95_year_season_counterexample`: C95 is false of seasons of years: a year without a time of one season makes the grouping fail.
* `C95_winter_counterexample`: C95 is false of winters in one year: the winter of 2000 grouped with the year is made of the first two months and the last.
* `C95_unique_bounds_counterexample`: C95 is false of the bounds of unique seasons: they are the first and the last value of the times, which do not cover the bounds of the times.
* `C95_middle_counterexample`: C95 is false of the representative of three times grouped together: it is the first, not the middle one.
* `C95_order_partial`: C95 (order). If years are grouped on, the representative times are in order.
* `C95_seasons_partial`: C95 (seasons). If every season, in every year when years are grouped on, has times, there is one group for each: its times are those of the season, its bounds are the first and the last of theirs, and the year of the representative is not outside them. The month of the representative is in the season if the season goes over the turn of the year, or the times have no bounds and its months are consecutive. Missing from the full property: seasons without times, seasons that begin with the same month, and representatives of times with bounds (see the counterexamples).
* `C95_unique_partial`: C95 (unique seasons). The groups are those of C28 if the times have no bounds; the representative is one of the times of the group, and without bounds the bounds of the group are its first and last time. Missing from the full property: bounds of the times are not looked at (`C95_unique_bounds_counterexample`).
* `C95_all_partial`: C95 (all times). Grouping all times gives one group of all of them, with the first and the last bound, represented by one of them: the last of the first half if there is an even number. Missing from the full property: the representative of an odd number of times is not the middle one (`C95_middle_counterexample`).

**C96**

* `C96_dictionary_counterexample`: C96 is false for the caller's dictionary: without `strict` it loses the names the field does not have, and the next field sliced by it, which has them, is not sliced along them.
* `C96_shared_counterexample`: C96 is false when two standard names share a dimension: a field of points cannot be sliced at all.
* `C96_clash_counterexample`: C96 is false when a dimension that has no standard name is called by one: it is gone.
* `C96_own_name_counterexample`: C96 is false for the own name of a dimension with a standard name: it is not known.
* `C96_listed_counterexample`: C96 is false for the dimension map of the sliced field: a dimension is listed that was not.
* `C96_open_counterexample`: C96 is false for distributed slices with an open end: the same slice that works otherwise is refused.
* `C96_last_counterexample`: C96 is false for the last position given as `-1`, without and with `distributed`: no value is left of a dimension of length one, or a `TypeError`.
* `C96_negative_counterexample`: C96 is false for a negative start of a distributed slice: it counts as the beginning, for the values but not for the dimension.
* `C96_first_variable_counterexample`: C96 is false for dimensions that only other variables have: a distributed slice leaves them whole.
* `C96_no_data_counterexample`: C96 is false for a field without data variables: no distributed slice, whatever is asked for.
* `C96_past_end_counterexample`: C96 is false past the end: the dimension is as long as it was, the values are fewer.
* `C96_own_names_partial`: C96: a slice by standard names is what the slice of the same collection by the own names of its dimensions is, under the own names, and an error is the same; the dictionary is as it was. Not strict and strict slices agree, as all names are known. Partial: for names that are unambiguous (`C96_shared_counterexample`, `C96_clash_counterexample`, `C96_own_name_counterexample`).
* `C96_slice_partial`: C96: every variable is cut to the positions the slices keep, and every dimension has its own name and that many positions. Partial: for indices of the kind in `C38_collection_partial`, one array for a variable at most.
* `C96_field_partial`: C96: whatever the slice, the field is afterwards what it was, but that its dimension map lists the name of a variable for which no dimension was listed (`C96_listed_counterexample`). Partial: for names that are unambiguous.
* `C96_loose_partial`: C96: without `strict`, names that no dimension has are left out. Partial: they are gone from the caller's dictionary, too (`C96_dictionary_counterexample`).
* `C96_distributed_partial`: C96: a distributed slice on one process, which is what operations ask for: the dimensions of the first data variable are cut to the positions the slices keep, and every variable along them. Partial: dimensions the first data variable does not have are not cut (`C96_first_variable_counterexample`), and the indices are plain (`C96_open_counterexample`, `C96_last_counterexample`, `C96_negative_counterexample`), one array for a variable at most.

**C97**

* `C97_own_mask_counterexample`: C97 is false of masks: what is masked in the variable but not on the grid is no longer masked.
* `C97_source_mask_counterexample`: C97 is false of the masks of the source: a variable over the grid, converted under another name and back, loses its own mask in the source field too.
* `C97_no_time_counterexample`: C97 is false of variables without time in a field that has one: they are refused.
* `C97_name_counterexample`: C97 is false of fields without data variables that are given a name: the ESMF field cannot be converted back.
* `C97_expanded_counterexample`: C97 is false of grids with bounds: their coordinates are no longer vectors afterwards.
* `C97_mask_shape_counterexample`: C97 is false of the shape of the mask: it has longitude first, the coordinates latitude first.
* `C97_mask_name_counterexample`: C97 is false of mask variables with another name: the new grid refers to a variable it does not have.
* `C97_value_mask_counterexample`: C97 is false of given masks: ESMF sees the cell as unusable, the grid that comes back has no mask.
* `C97_clockwise_counterexample`: C97 is false of the order of corners: counter-clockwise cells come back clockwise.
* `C97_converter_counterexample`: C97 is false of the converter's documented default, `auto`: without the option there are no corners although the grid has bounds.
* `C97_round_trip_partial`: **C97 (partial).** Converting to ESMF and back gives the variable with its dimensions and values, masked exactly where the grid is, as the only data variable; the other variables of the field come along with their values, and with their masks if they are beside the grid. Missing: the mask of the variable itself (`C97_own_mask_counterexample`).
* `C97_grid_partial`: **C97 (partial).** A grid with latitude first comes back from ESMF with its centres, its corners - up to whole turns, the second and the last exchanged - and, by the names of the dimensions, its mask.

**C98**

* `C98_single_counterexample`: C98 is false of the code: if one element is left among several processes, it is lost.
* `C98_memory_counterexample`: C98 is false of the code: the values of a variable without source that has the dimension are lost.
* `C98_other_variables_counterexample`: C98 is false of the code: on a process that gets no elements, variables without the dimension lose their values; when it gets elements again, they are read as fill values.
* `C98_stale_dimension_counterexample`: C98 is false of the code: a process that gets no elements keeps its old dimension with its source indices, so that giving every process's dimension to a second redistribution brings elements twice.
* `C98_empty_dimension_counterexample`: C98 is false of the code: an empty dimension given for a process without elements, instead of none, is an error.
* `C98_communicator_counterexample`: C98 is false of the code: in a communicator of two of three started processes the redistribution is refused.
* `C98_groups_counterexample`: C98 is false of the code: a collection with groups cannot be scattered, whatever the groups are.
* `C98_scalars_counterexample`: C98 is false of the code: a collection of scalars only, and one without variables, cannot be scattered to several processes.
* `C98_redistribute_partial`: C98, partial: the source indices of all ranks, in rank order, are shared out evenly again, and nothing is lost, duplicated or reordered. On every rank that gets a part, the dimension holds exactly that part (with its bounds), the other dimensions are as before, every variable with a source and with the dimension reads the elements of its source at the part, and every other variable keeps its value. A rank that gets no part is empty. Missing: a single source index, variables without source, variables without the dimension on emptied ranks, and communicators of fewer processes than were started (see the counterexamples).
* `C98_scatter_partial`: C98, partial: scattering a collection without groups, none of whose variables is distributed, to the processes of a distribution succeeds; every process gets every variable. A variable with the distributed dimension is cut into parts that joined in rank order are the variable; the others are complete on every process that has a part; the remaining processes get no values. Missing: groups, and collections without dimensions (see the counterexamples).

**C99**

* `C99_input_mask_counterexample`: The heat index masks values of the field's own variables, for calculations that come after it: here the temperature of 75.
* `C99_member_counterexample`: 
* `C99_order_counterexample`: 
* `C99_place_counterexample`: Such a dimension at another place: an `IndexError`, because the output is indexed as if it were at the same place.
* `C99_first_counterexample`: A variable that has a dimension more than the first is refused, although it could be computed.
* `C99_unused_counterexample`: A string expression over one variable is decided by another one that does not occur in it, if that is the field's first.
* `C99_mask_counterexample`: The mask of a string expression is lost: an element computed from a masked one is not masked.
* `C99_integer_counterexample`: Quotients of integers are cut off.
* `C99_given_counterexample`: If one variable is given and another is not, the given one is not used.
* `C99_multivariate_partial`: C99: a calculation with several variables that fit the first of them computes, at each place of the first, its formula from exactly the elements of its variables at the same place, and stores it in the data type of the first; which variable is which is as given.
* `C99_inputs_partial`: A calculation leaves the values of the field's variables as they are; the masks too, of variables that have none or whose values it does not hide.
* `C99_expression_partial`: C99: a string expression, evaluated for data variables that fit the first of them, has at each place of the first the value of the expression from the elements of the named variables there, in the data type of the first. (Masks are lost: see the counterexample.)
* `C99_grouped_partial`: C99: with a temporal grouping each value of the output is the aggregate of the cell by cell results of the group's times there.

**C100**

* `C100_two_holes_counterexample`: C100 counterexample: with two holes every hole contributes four pieces of the whole polygon: pieces keep the other hole, which is lost when only exteriors are written, and overlap.
* `C100_threshold_counterexample`: C100 counterexample: the pieces are not split again, so that they may all have more nodes than the threshold.
* `C100_triple_counterexample`: C100 counterexample: of a node that occurs three times two remain.
* `C100_height_counterexample`: C100 counterexample: three-dimensional polygons with a repeated node stop the conversion, whether or not polygons may be left out.
* `C100_holes_counterexample`: C100 counterexample: self-intersections of a polygon with holes are not removed; without permission to leave polygons out it is used as it is, with permission it is left out although its holes could be split.
* `C100_break_counterexample`: C100 counterexample: a polygon repaired to several is written with a break value that no attribute announces, and cannot be read.
* `C100_split_partial`: C100 for polygons with one hole at most: no piece has a hole, and the pieces of a polygon have only points of the lines through the centroid of the hole in common. Missing: polygons with several holes (`C100_two_holes_counterexample`).
* `C100_threshold_partial`: C100 for splitting by a number of nodes: the pieces cover exactly what the polygons covered, polygons with no more nodes than the threshold stay as they are, and pieces of polygons without holes have none. Missing: that the pieces have no more nodes than the threshold (`C100_threshold_counterexample`).
* `C100_prepared_partial`: C100 for one geometry, without removal of self-intersections: the polygons written cover exactly what the geometry covered, are the polygons of the geometry unless a piece was split, and have no holes if the polygons had one at most.
* `C100_convert_partial`: C100 for the conversion, without removal of self-intersections: reading the connectivity gives, in their order, the shapes of the geometries that are not left out, and the data variable has the values of just these; a shape consists of the exteriors of polygons that cover what the geometry covered. Missing: a start index for geometries of several polygons (see C63) and self-intersections (`C100_break_counterexample`).
* `C100_corners_partial`: C100 for the removal of self-intersections: if no node of a polygon without holes occurs more than twice, the new polygon has the same nodes, in their order, each once; it is the result if it is valid. Missing: nodes that occur three times (`C100_triple_counterexample`).

**C101**

* `C101_start_attribute_counterexample`: **C101 (counterexample, start index from the attribute)**: a UGRID file numbered from 1, opened without saying so again. The new connectivity is numbered from 1 too, but says it starts at 0: the shapes change, or cannot be made.
* `C101_esmf_zero_counterexample`: **C101 (counterexample, start index from the attribute, other way)**: an ESMF file numbered from 0.
* `C101_parts_counterexample`: **C101 (counterexample, elements with several parts)**: the break value is counted as the first node, and the attribute saying that it is one is lost: two triangles become one seven-sided figure.
* `C101_other_start_counterexample`: **C101 (counterexample, other start indices)**: only a start index of 1 is taken off before nodes are picked.
* `C101_array_of_arrays_counterexample`: **C101 (counterexample, arrays of arrays)**: what `convert_to` returns by default cannot be reduced, whatever it contains.
* `C101_slice_flat_counterexample`: **C101 (counterexample, slicing the ESMF layout)**: the counts are sliced, the flat connectivity is not, so the second element comes out with the nodes of the first.
* `C101_reduce_shapes_partial`: **C101 (reducing, partial)**: the reduced mesh hands out the same shapes as before, element by element, with the same mask and the same number of nodes in every element, and says from where it is numbered. Missing: meshes whose start index is known only from the attribute and differs from the driver's default (`C101_start_attribute_counterexample`), elements with several parts (`C101_parts_counterexample`), start indices other than 0 and 1 (`C101_other_start_counterexample`) and connectivity held as an array of arrays (`C101_array_of_arrays_counterexample`).
* `C101_slice_partial`: **C101 (slicing, partial)**: choosing elements of a mesh with one row per element gives their shapes, in the order chosen. Missing: the ESMF layout (`C101_slice_flat_counterexample`).

**C102**

* `C102_points_only_counterexample`: **C102 (counterexample, points only)**: a mesh with face coordinates but no polygons is written, and read as far as its names, but no dimension can be found to distribute, so it cannot be opened.
* `C102_old_host_counterexample`: **C102 (counterexample, old host)**: centres added to a mesh that was read from a file are written but not named, because the old topology variable is kept as it is.
* `C102_blank_counterexample`: **C102 (counterexample, blanks)**: two blanks between names, or a blank in a name, make the file unreadable.
* `C102_centres_counterexample`: **C102 (counterexample, centres)**: the centres of no mesh are found again.
* `C102_mask_counterexample`: **C102 (counterexample, mask)**: a mask of any other name is not found again.
* `C102_height_refused_counterexample`: **C102 (counterexample, a third coordinate)**: meshes with heights are refused.
* `C102_third_column_counterexample`: **C102 (counterexample, a third column)**: heights of nodes in the file are dropped when the coordinates have been used.
* `C102_one_centre_counterexample`: **C102 (counterexample, one element)**: the centre of a single element has no dimension, and cannot be written.
* `C102_iterated_counterexample`: **C102 (counterexample, after iterating)**: iterating over the shapes takes the start index off the stored connectivity (C52); what is then written is numbered one too low, and is read as other shapes.
* `C102_ugrid_names_partial`: **C102 (UGRID, partial)**: a mesh of polygons, with or without face coordinates, is written with a topology variable from which reading finds the same node coordinates in the same order, the same connectivity and the same face coordinates, each with its first dimension; all variables of the field are in the file. Missing: a field that still has the topology variable it was read with (`C102_old_host_counterexample`), meshes of points only (`C102_points_only_counterexample`), names with blanks (`C102_blank_counterexample`).
* `C102_distributed_partial`: **C102 (UGRID, what is distributed)**: the dimension by which a mesh of polygons is divided among processes is the first dimension of its connectivity.
* `C102_esmf_written_partial`: **C102 (ESMF unstructured, written, partial)**: a mesh of two coordinates and at least two nodes is written so that reading gives the same coordinates, the same start index and break value, and the same shape for every element, and the mask if it is named as in the format. Missing: centres (`C102_centres_counterexample`), masks of other names (`C102_mask_counterexample`), a third coordinate (`C102_height_refused_counterexample`) and empty meshes.
* `C102_esmf_rewritten_partial`: **C102 (ESMF unstructured, rewritten, partial)**: a file with two coordinates, read and written again, whether its coordinates have been used or not, is as before, except that the start index is stated; and it is read as the same mesh. Missing: a third coordinate (`C102_third_column_counterexample`), one element with its centre (`C102_one_centre_counterexample`), meshes whose shapes were iterated over first (`C102_iterated_counterexample`).

**C103**

* `C103_bent_counterexample`: C103 fails for the position of the outer corners: only the first row tells the direction and the step. The second row of this array goes down, but the corners on the left of its first cell are below those on its right.
* `C103_strip_counterexample`: C103 fails for a grid with one row: its y coordinate is the same on both sides, so the cells have no height, while the same coordinates as vectors are refused.
* `C103_two_forms_counterexample`: C103 fails for the two forms of a rectilinear grid with uneven spacing: the coordinate vector and the same coordinates in two dimensions have different outer edges.
* `C103_integers_counterexample`: C103 fails for integers: the corners are cut off to integers, and these centres lie on the edge of their cells; the corners of these arrays are even the centres themselves.
* `C103_name_counterexample`: C103 fails for a name that is taken: the call is refused, but the variable has been given the other variable as its bounds.
* `C103_half_counterexample`: C103 fails for grids with bounds on one coordinate: with bounds on x, y gets none and the request goes on without them; and when y is refused x keeps its new bounds.
* `C103_outer_corners_partial`: C103, for arrays whose first row and first column go one way: the corners around the outside are one step away from the corners next to them, on every row and every column, and the step is the mean step of the first row (the first column), up or down as it goes. Partial: the direction and the step of other rows and columns play no part (`C103_bent_counterexample`), and integers are cut off (`C103_integers_counterexample`).
* `C103_strip_partial`: C103: an array with one row, or with one column, gets the edges of its values as a vector, repeated for both sides. Partial: the two sides have the same corners, so the coordinate that is constant along the strip has cells without extent (`C103_strip_counterexample`).

**C104**

* `C104_group_counterexample`: C104 fails for groups: a request dataset that asks for a group of its file is opened, but the group cannot be closed. The reading is done, an exception leaves it, and the file stays open.
* `C104_missing_group_counterexample`: C104 fails for groups that are missing: the file stays open.
* `C104_replaced_counterexample`: C104 fails for the exception of the body: it is replaced by the exception of closing a group.
* `C104_parallel_counterexample`: C104 fails for callers that set `parallel`: asked for without the setting, or left to the default by `None` with it, the template is opened for all processes by the first one alone.
* `C104_closed_once_partial`: C104, for every program that opens scopes inside scopes, uses files, fails anywhere and catches exceptions or not, on every driver, with files that can be opened and files that cannot: afterwards the same files are open as before; every file the program opened was opened once and closed once, after it was opened; a file that was open before is not closed; and whatever is used is open at that moment (or an iterator, which holds no file). Partial: a scope that asks for a group of a file leaves it open (`C104_group_counterexample`, `C104_missing_group_counterexample`).
* `C104_exceptions_partial`: C104, exceptions: when the files can be opened and every scope has something to scope, the exception that leaves the program is the one the program raised, and there is none when it raised none; closing files changes nothing about it.
* `C104_parallel_partial`: C104, a file created by several processes: unless the caller sets `parallel`, the library opens it for all processes exactly in the passes that all processes make together, whatever the setting, the number of processes and the format; so no process waits in an opening for others that do not come.

**C105**

* `C105_gap_counterexample`: C105 fails for geometries after one without data: a collection that is empty is not counted, so the second geometry of two is at the first place, and the last place is empty.
* `C105_longer_counterexample`: C105 fails for names that are longer than the first: records given as dictionaries get the width of the first record's text (`"A"`: 1), and the file has no room for the second.
* `C105_allow_empty_counterexample`: C105 fails for fields that were not averaged: with `allow_empty` the aggregation is passed over (ops/engine.py:356), there is no identifier, and writing fails after the coordinates were replaced.
* `C105_name_counterexample`: C105 fails for properties named like a variable of the dataset.
* `C105_places_partial`: C105: for every sequence of collections, of any length and with any variables and properties: when an aggregated file is written, the collections that are not empty are shown at the places 0, 1, …, in order. At its place, each geometry has its centroid, its properties, its identifier and its averages, all of them its own; no collection disturbs the place of another; the places after the last collection hold nothing; the dimension has as many places as there are selection geometries. Partial: geometries after one without data are not at their own number (`C105_gap_counterexample`).

**C106**

* `C106_shared_unlimited_counterexample`: C106: two variables that were made with the same unlimited dimension, each with a collection of its own: setting the value of one changes the shape of the other, which no longer has that of its value.
* `C106_short_mask_counterexample`: C106: a longer value along an unlimited dimension leaves the mask as short as it was.
* `C106_refused_dimensions_counterexample`: C106: dimensions that are refused are the variable's dimensions nevertheless.
* `C106_no_dimensions_counterexample`: C106: `set_dimensions(None)` is refused for a variable with a value, which has no dimensions afterwards.
* `C106_refused_reshape_counterexample`: C106: a reshaping that is refused loses the value.
* `C106_forced_counterexample`: C106: forced dimensions take the place of those of the same name, which other variables of the collection have.
* `C106_bare_mask_counterexample`: C106: a variable with a mask but no value takes dimensions of other lengths without complaint.
* `C106_stale_bounds_mask_counterexample`: C106: bounds stay masked after the mask of the variable was taken away.
* `C106_bounds_dimension_counterexample`: C106: dimensions given to a variable take the place of the bounds' own dimension if there are more of them than before (the values are not allocated).
* `C106_history_partial`: C106 (partial: all dimensions have sizes, nothing is forced, and no operation that sets dimensions or bounds is refused): after any history, refused calls of the other operations included, every variable's value and mask have the lengths of its dimensions, which are found in its collection.

**C107**

* `C107_existing_directory_counterexample`: Without `nchunks_dst` the directory given is used although it is there, and is removed with all that is in it: files the run has nothing to do with are lost, for a subset as well as for merging only.
* `C107_one_chunk_directory_counterexample`: So is a directory given for a run with one chunk.
* `C107_nested_weight_counterexample`: A weight file deeper in the working directory is not refused: the run succeeds and removes it.
* `C107_above_counterexample`: A working directory below the path of the weights' own directory name is refused as if the weights were in it.
* `C107_one_chunk_counterexample`: One chunk, no working directory: the weights are written, then the run fails.
* `C107_defaults_counterexample`: With all options at their defaults the run fails after writing the weights; the temporary directory stays.
* `C107_subset_removed_counterexample`: A subset without a path of its own, and without `--persist`, is removed by the run that was asked for it.
* `C107_subset_overwritten_counterexample`: A file that exists at the path of the subset is overwritten.
* `C107_history_added_counterexample`: A file that exists at the path of the weights is changed by a run that makes no weights.
* `C107_left_directory_counterexample`: A refused path of the weights leaves the new working directory behind.
* `C107_missing_directory_counterexample`: A subset in a given directory that is not there fails: the directory is not made.
* `C107_keeps_partial`: If the command makes its working directory itself, and the path of the subset is free, nothing that was there is changed or removed, whatever fails; a file at the path of the weights is kept if weights are asked for. Missing: runs in a directory that is there (`C107_existing_directory_counterexample`), an existing subset (`C107_subset_overwritten_counterexample`) and weights that are not asked for (`C107_history_added_counterexample`).
* `C107_weight_partial`: A successful run that was asked for weights leaves them at the path given, with the record of the command, if it makes its working directory itself. Missing: runs in a directory that is there (`C107_nested_weight_counterexample`).

**C108**

* `C108_clean_counterexample`: 
* `C108_bounds_lost_counterexample`: C108 (what fails): with a clean break and without bounds, the bounds are taken out of the old collection as well and are not in the new one.
* `C108_tags_counterexample`: C108 (what fails): the tags of the new collection name variables that are not in it.
* `C108_extract_partial`: C108: a variable of a consistent collection can be extracted; the new collection has exactly the variable, its bounds if they are wanted and there, and the dimensions of these, in the order of the old one. Apart from the tags it is consistent.
* `C108_clean_partial`: C108: with a clean break, a variable without bounds is afterwards in the new collection, with exactly its dimensions, and nothing else is; the old collection has all the other variables, no longer has the dimensions that only it had, and is consistent.
* `C108_spatial_partial`: C108: the coordinate system goes with a spatial variable: the new collection has exactly the variable, its bounds if wanted and there, and the coordinate system.
* `C108_grid_partial`: C108: a grid is extracted with exactly its coordinate and mask variables and their bounds, in the old order, and without the dimensions only other variables had; the new collection is consistent. The old one stays as it is or, with a clean break, keeps exactly the other variables and loses the dimensions only members had, and is consistent.

**C109**

* `C109_offset_counterexample`: A file with a variable that has an offset but no factor is opened, and its type is that of the packed integers, not of the values: they are truncated when they are loaded (variable/base.py:765-823).
* `C109_wrong_group_counterexample`: If there is such a group, the variable of the inner group is opened with the dimensions of the other one.
* `C109_predicate_counterexample`: Variables of groups are in the field whatever the predicate says.
* `C109_open_partial`: A file whose variables are at the root or in groups of it, each with different dimensions of its own group, is opened as a field that has a child for each group, and what the group has; the predicate chooses the variables of the root. Missing: groups in groups (`C109_nested_never`, `C109_wrong_group_counterexample`), dimensions of enclosing groups (`C109_inherited_never`), dimensions that appear twice (`C109_repeated_never`), a name for the field (`C109_named_never`) and variables of groups that do not satisfy the predicate (`C109_predicate_counterexample`).
* `C109_dtype_partial`: The type of a variable is that of the values netCDF4 reads, if no offset is added without a factor. Missing: variables with an offset only (`C109_offset_counterexample`).

**C110**

* `C110_check_partial`: C110 (coordinates that lie on the grid): a mask made from values hides exactly the cells one of whose coordinates is hidden or missing. The other variables stay as they were, and coordinates hide what they hid.
* `C110_cascade_partial`: C110 (variables that do not have exactly the dimensions of the grid, or have no mask of their own): with `cascade`, a mask of the grid hides in every other variable exactly the elements over hidden cells, besides those it hid itself; coordinates, bounds and variables off the grid stay as they were.
* `C110_variable_partial`: C110 (a variable that says it is a mask and is in no collection): set as the mask of the grid, its mask is the mask of the grid and the other variables stay as they were.
* `C110_scrip_partial`: C110 (a file whose mask was neither read nor set): the mask of a SCRIP grid hides the cells whose value of `grid_imask` is zero, however often it is asked for.

**C111**

* `C111_polygons_partial`: C111 (both coordinates have bounds and polygons are wanted): the polygons of a grid are its cells, each in its place: the smallest box with the bounds, or the corners in their order; masked cells have none, and the mask is that of the grid.
* `C111_assign_partial`: C111 (the assigned grid has a mask, and bounds if the other has them): the cells of a slice become those of the assigned grid, with centres, bounds and mask. Other cells stay as they were if coordinates are two-dimensional; otherwise those in other rows and columns do.

**C112**

* `C112_conform_partial`: C112 (values were read and are not of an integer data type; bounds are in the units of the variable, were not to be converted on their own, and numbers were kept if they are dates): conforming to units of the same kind gives the variable and its bounds these units and leaves what they stand for, and what is hidden.

**C113**

* `C113_read_partial`: C113 (ordinary files, nothing was done with the field before it is read): on every rank that has a part of the file, each column shows the records of that part, in their order; reading one variable does not keep another from showing its own column.
* `C113_ranks_partial`: C113 (ordinary files; one process, or not just one record): every rank can open and read the file, and what the ranks show is, in the order of the ranks, every record of the file once.
* `C113_slice_partial`: C113: slices of a field that was read show the selected records.
* `C113_assign_partial`: C113: values that are assigned after the field was read stay, and the other columns show the file.

**C114**

* `C114_process_partial`: Identifiers are counted: the output, a file other than the source, has the features of the source in their order with identifiers 1, 2, 3 and so on, the other properties and valid geometries as they were and the other geometries cleaned. No other file is changed. Missing: the output must not be the source (`C114_same_never`).
* `C114_copied_partial`: Identifiers from a property: if it is an integer for every feature, each feature has that integer.

**C115**

* `C115_identifiers_partial`: Each dataset has the identifier it came with, or its position if it came with none. Missing: a request dataset must not be there twice (`C115_twice_never`).
* `C115_unique_partial`: Identifiers differ from each other if those that were given differ from each other and from the positions of the others, and no request dataset is there twice.
* `C115_counted_partial`: Without any given identifiers there is no clash, and the identifiers are one, two, three and so on.
* `C115_unchanged_partial`: Fields of the caller are not changed, nor are request datasets that are not among the datasets, nor identifiers that were there.
* `C115_file_rows_partial`: If identifiers differ, the rows of the file with the identifier of a dataset are the data variables of that dataset in their order.

**C116**

* `C116_type_counterexample`: Values of later groups are converted to the type of the first group: two and a half is stacked as two.
* `C116_repeated_counterexample`: A later group with one value where the first group has three is taken for a group with three equal values.
* `C116_stacked_partial`: Exactly one variable of the first group has the dimension, and it has length one along it in every group: the result has that variable stacked, the other variables of the first group and the names of the groups. Missing: several variables (`C116_two_never`), masks and attributes (`C116_lost_never`), bounds, and unlimited dimensions (`C116_unlimited_never`).

**C117**

* `C117_extent_partial`: On every process the extent is that of all parts together: least and greatest of all the values that count. Missing: no part may be empty (`C117_empty_never`) or without any value that counts (`C117_masked_never`).
* `C117_spread_partial`: There is only one extent of the parts together, so the result does not depend on how the values are spread: parts with the same values in all have the same extent, on any number of processes.
* `C117_serial_partial`: In particular it is the extent that one process with all the values has.

**C118**

* `C118_all_partial`: The sizes of all variables of all fields are shown, in their order, and the total is their sum. Missing: fields must have different names (`C118_geometries_never`), variables dimensions (`C118_scalar_never`), and those of groups are left out (`C118_groups_never`).

**C119**

* `C119_values_partial`: Without bounds the resolution is the mean distance of the first hundred successive values. Missing: no two of them that follow each other may be on different sides of zero (`C119_crossing_never`).
* `C119_report_partial`: The report of a time variable shows whole days of the resolution, so data with steps shorter than a day have resolution nought.

**C120**

* `C120_found_partial`: Nothing fails, and every record of the table has in the shapefile the geometry it belongs to, under the same identifiers. Missing: identifiers that the geometries have must be named `GID` (`C120_name_never`), and there is no shapefile for aggregated data (`C120_aggregated`).
* `C120_only_partial`: It is the only geometry under these identifiers if no two fields have the same identifiers of dataset and selection geometry.

**C121**

* `C121_named_partial`: A name stands for the dataset with that name. Missing: the name is looked up in lower case without blanks around it (`C121_capital_never`, `C121_blank_never`), it must not be shared by a later dataset (`C121_repeated_never`), and there must be requests only (`C121_field_never`).

**C122**

* `C122_dimension_partial`: A dimension that is added to a group is there on every rank and is found by its name; what else was in the group stays. Missing: it must have the same name in its source (`C122_renamed_never`).

**C123**

* `C123_alone_partial`: A definition, a text or a code alone is what the coordinate system is made of, and nothing at all is refused. Missing: definitions have no `init`, and the code is not 4326 (below).
* `C123_init_partial`: A definition that begins with the key for a code means the code. Missing: it must be the first key, in lower case and without a text (`C123_init_never`).

**C124**

* `C124_rows_partial`: A text is broken into indented rows with all of its words, each row as full as it can be and narrower than the right edge. Missing: its words must be shorter than the space between indentation and right edge (`C124_endless_never`, `C124_long_never`).

**C125**

* `C125_archive_partial`: The archive has every file below the folder with its content, and nothing else. Missing: files with the same name, one of them in a folder `shp` or not, must not differ (`C125_lost_never`).

**C126**

* `C126_date_partial`: A number of a date with a year of four digits is that date, with the hour and the minute the fraction is in. Missing: other years (below), and the seconds (`C126_seconds_never`).

**C127**

* `C127_all_partial`: If different files have different ends, the answer has the files, in another order. Missing: files with the same end (below).

**C128**

* `C128_value_partial`: With a name and a value the answer is the variables that have the attribute with the value, once each and in their order, whatever the question that is given besides. Missing: `None` as value and no name (below).
* `C128_question_partial`: With a name and a question the answer is the variables with the attribute and a value the question accepts.

**C129**

* `C129_flat_partial`: Attributes given flat are on the output variable, over its own; the field is as it was. Missing: attributes one of which is a dictionary (`C129_mixed_never`).

**C130**

* `C130_variables_partial`: In every group of the file the wanted variables are in the field, in their order and under their new names, if these are different. The names and the predicate are about names in the file, in groups as at the top. Missing: new names that are not different (below).

**C131**

* `C131_later_counterexample`: So there are times that are not daily with an answer.
* `C131_units_counterexample`: A frost that is counted in degrees Celsius is not counted in Kelvin if another variable, in degrees Celsius, comes first.
* `C131_daily_partial`: With daily data of at least two days, in degrees Celsius, or the same temperatures in Kelvin, the answer is the number of transitions of every series. Missing: the units of the variable that is calculated with (`C131_units_never`).

**C132**

* `C132_recorded_partial`: The history tells runs apart: with different values of the parameters it has different words. Missing: that the words are a command for the run (`C132_again_never`).

**C133**

* `C133_chunks_partial`: There are as many chunks as asked for, and every cell is in exactly one of them. Missing: that the chunker gets them (`C133_chunker_never`).

**C134**

* `C134_name_partial`: Groupings whose seasons are runs of two to twelve months have a name, and if two have the same name they have the same seasons in the same order and the same flag. Missing: seasons of one month and of months that are not in a row (`C134_single_never`), and where the flag is.

**C135**

* `C135_logged_partial`: A message at or above the level of a logger with a file or a stream is in the log, with alias and geometry; one below is not; with neither nothing is. Missing: warnings and exceptions (`C135_warning_never`, `C135_exception_never`).
<!-- END -->
