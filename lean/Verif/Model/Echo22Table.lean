/-!
# The table `py/desimeter/transform/tan2fp/data/Echo22Platescale.txt`

All 421 rows, first two columns: radius in mm and angle in units of 1e-9 degrees (every value in the file has at most nine
decimals, so the integers are exact).
-/

namespace Verif.Model.Echo22

/-- Columns `Radius` (mm) and `Theta` (1e-9 degrees) of Echo22Platescale.txt. -/
def table : List (Int × Int) := [
  (0, 0), (1, 4114797), (2, 8229587), (3, 12344363), (4, 16459119), (5, 20573847), (6, 24688541), (7, 28803193),
  (8, 32917798), (9, 37032347), (10, 41146835), (11, 45261253), (12, 49375595), (13, 53489855), (14, 57604023),
  (15, 61718095), (16, 65832062), (17, 69945918), (18, 74059655), (19, 78173268), (20, 82286748), (21, 86400089),
  (22, 90513284), (23, 94626326), (24, 98739208), (25, 102851924), (26, 106964466), (27, 111076827), (28, 115189000),
  (29, 119300979), (30, 123412755), (31, 127524323), (32, 131635675), (33, 135746803), (34, 139857702),
  (35, 143968365), (36, 148078785), (37, 152188955), (38, 156298870), (39, 160408522), (40, 164517905),
  (41, 168627012), (42, 172735836), (43, 176844371), (44, 180952607), (45, 185060539), (46, 189168159),
  (47, 193275460), (48, 197382434), (49, 201489074), (50, 205595374), (51, 209701327), (52, 213806926),
  (53, 217912167), (54, 222017041), (55, 226121543), (56, 230225667), (57, 234329405), (58, 238432752),
  (59, 242535699), (60, 246638240), (61, 250740368), (62, 254842074), (63, 258943353), (64, 263044196),
  (65, 267144597), (66, 271244549), (67, 275344046), (68, 279443081), (69, 283541649), (70, 287639743),
  (71, 291737356), (72, 295834483), (73, 299931118), (74, 304027252), (75, 308122879), (76, 312217992),
  (77, 316312583), (78, 320406644), (79, 324500168), (80, 328593147), (81, 332685575), (82, 336777445),
  (83, 340868750), (84, 344959484), (85, 349049642), (86, 353139216), (87, 357228202), (88, 361316593),
  (89, 365404382), (90, 369491564), (91, 373578132), (92, 377664079), (93, 381749399), (94, 385834085),
  (95, 389918131), (96, 394001530), (97, 398084276), (98, 402166362), (99, 406247782), (100, 410328527),
  (101, 414408591), (102, 418487967), (103, 422566648), (104, 426644628), (105, 430721898), (106, 434798453),
  (107, 438874288), (108, 442949395), (109, 447023769), (110, 451097405), (111, 455170297), (112, 459242439),
  (113, 463313825), (114, 467384450), (115, 471454305), (116, 475523385), (117, 479591682), (118, 483659190),
  (119, 487725902), (120, 491791810), (121, 495856909), (122, 499921190), (123, 503984650), (124, 508047281),
  (125, 512109078), (126, 516170034), (127, 520230145), (128, 524289404), (129, 528347805), (130, 532405342),
  (131, 536462008), (132, 540517798), (133, 544572704), (134, 548626718), (135, 552679836), (136, 556732049),
  (137, 560783352), (138, 564833736), (139, 568883198), (140, 572931730), (141, 576979328), (142, 581025985),
  (143, 585071696), (144, 589116455), (145, 593160257), (146, 597203095), (147, 601244965), (148, 605285858),
  (149, 609325770), (150, 613364695), (151, 617402625), (152, 621439554), (153, 625475478), (154, 629510388),
  (155, 633544280), (156, 637577148), (157, 641608986), (158, 645639788), (159, 649669550), (160, 653698265),
  (161, 657725927), (162, 661752532), (163, 665778073), (164, 669802545), (165, 673825941), (166, 677848257),
  (167, 681869484), (168, 685889619), (169, 689908655), (170, 693926586), (171, 697943407), (172, 701959110),
  (173, 705973692), (174, 709987145), (175, 713999464), (176, 718010644), (177, 722020677), (178, 726029560),
  (179, 730037284), (180, 734043847), (181, 738049241), (182, 742053461), (183, 746056503), (184, 750058360),
  (185, 754059027), (186, 758058500), (187, 762056771), (188, 766053837), (189, 770049691), (190, 774044328),
  (191, 778037743), (192, 782029930), (193, 786020883), (194, 790010597), (195, 793999067), (196, 797986287),
  (197, 801972252), (198, 805956956), (199, 809940395), (200, 813922562), (201, 817903452), (202, 821883061),
  (203, 825861382), (204, 829838411), (205, 833814141), (206, 837788569), (207, 841761687), (208, 845733492),
  (209, 849703977), (210, 853673137), (211, 857640968), (212, 861607463), (213, 865572618), (214, 869536429),
  (215, 873498890), (216, 877459997), (217, 881419745), (218, 885378129), (219, 889335145), (220, 893290788),
  (221, 897245053), (222, 901197935), (223, 905149428), (224, 909099527), (225, 913048227), (226, 916995522),
  (227, 920941407), (228, 924885877), (229, 928828926), (230, 932770551), (231, 936710746), (232, 940649506),
  (233, 944586827), (234, 948522704), (235, 952457133), (236, 956390109), (237, 960321627), (238, 964251682),
  (239, 968180270), (240, 972107386), (241, 976033024), (242, 979957180), (243, 983879850), (244, 987801027),
  (245, 991720707), (246, 995638886), (247, 999555558), (248, 1003470719), (249, 1007384364), (250, 1011296487),
  (251, 1015207085), (252, 1019116152), (253, 1023023683), (254, 1026929674), (255, 1030834120), (256, 1034737018),
  (257, 1038638364), (258, 1042538154), (259, 1046436384), (260, 1050333049), (261, 1054228147), (262, 1058121673),
  (263, 1062013623), (264, 1065903992), (265, 1069792774), (266, 1073679966), (267, 1077565562), (268, 1081449556),
  (269, 1085331945), (270, 1089212724), (271, 1093091887), (272, 1096969430), (273, 1100845351), (274, 1104719644),
  (275, 1108592306), (276, 1112463334), (277, 1116332723), (278, 1120200469), (279, 1124066570), (280, 1127931019),
  (281, 1131793814), (282, 1135654950), (283, 1139514422), (284, 1143372226), (285, 1147228357), (286, 1151082812),
  (287, 1154935586), (288, 1158786674), (289, 1162636073), (290, 1166483778), (291, 1170329785), (292, 1174174090),
  (293, 1178016689), (294, 1181857578), (295, 1185696753), (296, 1189534209), (297, 1193369944), (298, 1197203952),
  (299, 1201036232), (300, 1204866778), (301, 1208695589), (302, 1212522660), (303, 1216347987), (304, 1220171568),
  (305, 1223993398), (306, 1227813475), (307, 1231631793), (308, 1235448349), (309, 1239263140), (310, 1243076160),
  (311, 1246887407), (312, 1250696876), (313, 1254504563), (314, 1258310464), (315, 1262114577), (316, 1265916897),
  (317, 1269717421), (318, 1273516147), (319, 1277313070), (320, 1281108187), (321, 1284901496), (322, 1288692992),
  (323, 1292482672), (324, 1296270532), (325, 1300056569), (326, 1303840778), (327, 1307623157), (328, 1311403701),
  (329, 1315182406), (330, 1318959268), (331, 1322734285), (332, 1326507452), (333, 1330278767), (334, 1334048228),
  (335, 1337815830), (336, 1341581573), (337, 1345345451), (338, 1349107464), (339, 1352867608), (340, 1356625879),
  (341, 1360382276), (342, 1364136794), (343, 1367889430), (344, 1371640181), (345, 1375389044), (346, 1379136014),
  (347, 1382881089), (348, 1386624265), (349, 1390365539), (350, 1394104908), (351, 1397842369), (352, 1401577920),
  (353, 1405311557), (354, 1409043278), (355, 1412773080), (356, 1416500960), (357, 1420226915), (358, 1423950942),
  (359, 1427673039), (360, 1431393203), (361, 1435111431), (362, 1438827720), (363, 1442542067), (364, 1446254470),
  (365, 1449964926), (366, 1453673432), (367, 1457379985), (368, 1461084585), (369, 1464787230), (370, 1468487917),
  (371, 1472186645), (372, 1475883413), (373, 1479578219), (374, 1483271062), (375, 1486961939), (376, 1490650849),
  (377, 1494337790), (378, 1498022759), (379, 1501705756), (380, 1505386776), (381, 1509065820), (382, 1512742884),
  (383, 1516417966), (384, 1520091065), (385, 1523762177), (386, 1527431299), (387, 1531098428), (388, 1534763559),
  (389, 1538426690), (390, 1542087817), (391, 1545746936), (392, 1549404044), (393, 1553059138), (394, 1556712217),
  (395, 1560363285), (396, 1564012344), (397, 1567659397), (398, 1571304448), (399, 1574947499), (400, 1578588554),
  (401, 1582227614), (402, 1585864683), (403, 1589499744), (404, 1593132764), (405, 1596763706), (406, 1600392536),
  (407, 1604019220), (408, 1607643722), (409, 1611266008), (410, 1614886042), (411, 1618503794), (412, 1622119354),
  (413, 1625732964), (414, 1629344878), (415, 1632955347), (416, 1636564624), (417, 1640172961), (418, 1643780611),
  (419, 1647387826), (420, 1650994857)]

end Verif.Model.Echo22
