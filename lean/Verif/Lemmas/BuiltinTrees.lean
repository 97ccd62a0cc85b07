import Verif.Lemmas.KeyTree

/-!
# Search trees for the built-in tables

Generated; checked in `Verif/Lemmas/BuiltinIndex.lean`.
-/

set_option maxRecDepth 4000

namespace ScaleGo.Builtin

/-- Positions of the keys of `types`, a subtree. -/
def typeIndex0 : KeyTree :=
  .node (.node (.node (.node (.node (.node .leaf 0x1426964 82 .leaf) 0x1476173 275 (.node .leaf 0x14b6579 344 .leaf)) 0x14c6f67 360 (.node (.node .leaf 0x158636d 746 .leaf) 0x1676173 771 .leaf)) 0x14b657973 349 (.node (.node (.node .leaf 0x14b696e64 350 .leaf) 0x150617973 469 .leaf) 0x1536c6f74 628 (.node (.node .leaf 0x154657874 663 .leaf) 0x1566f7465 713 .leaf))) 0x1265b75385d 0 (.node (.node (.node (.node .leaf 0x14170694964 31 .leaf) 0x14831303234 291 .leaf) 0x14832303438 292 (.node (.node .leaf 0x1496e646578 317 .leaf) 0x14f72646572 430 .leaf)) 0x14f776e6572 444 (.node (.node (.node .leaf 0x15068617365 486 .leaf) 0x15365744964 604 .leaf) 0x15375624964 653 (.node (.node .leaf 0x154616c6c79 660 .leaf) 0x1566f746572 716 .leaf)))) 0x1566f746573 717 (.node (.node (.node (.node (.node .leaf 0x158636d5630 761 .leaf) 0x158636d5631 762 .leaf) 0x158636d5632 763 (.node (.node .leaf 0x158636d5633 764 .leaf) 0x1426964646572 85 .leaf)) 0x1426f64794964 99 (.node (.node (.node .leaf 0x1426f756e7479 101 .leaf) 0x1446967657374 177 .leaf) 0x14574684c6f67 228 (.node (.node .leaf 0x1486561646572 294 .leaf) 0x14c616e654964 351 .leaf))) 0x14c696d697473 357 (.node (.node (.node (.node .leaf 0x14f726967696e 431 .leaf) 0x1506172614964 455 .leaf) 0x1506572553136 475 (.node (.node .leaf 0x1506572696f64 478 .leaf) 0x1506f696e7473 488 .leaf)) 0x152656d61726b 551 (.node (.node (.node .leaf 0x1536565644f66 583 .leaf) 0x1536950617468 607 .leaf) 0x1536954797065 608 (.node (.node .leaf 0x1537461747573 641 .leaf) 0x1547269654964 678 .leaf))))

/-- Positions of the keys of `types`, a subtree. -/
def typeIndex1 : KeyTree :=
  .node (.node (.node (.node (.node (.node .leaf 0x1576569676874 726 .leaf) 0x141737365744964 39 (.node .leaf 0x142656566794964 77 .leaf)) 0x14269644b696e64 83 (.node (.node .leaf 0x1426c6f636b5630 95 .leaf) 0x1426c6f636b5631 96 .leaf)) 0x1426c6f636b5632 97 (.node (.node (.node .leaf 0x1436861696e4964 127 .leaf) 0x1436c6173734964 131 .leaf) 0x1457468576f726b 244 (.node (.node .leaf 0x1466f7263696e67 265 .leaf) 0x147696c74426964 279 .leaf))) 0x14c696e6b616765 358 (.node (.node (.node (.node .leaf 0x14f70656e546970 425 .leaf) 0x14f7574636f6d65 442 .leaf) 0x150657262696c6c 476 (.node (.node .leaf 0x150657263656e74 477 .leaf) 0x15065726d696c6c 479 .leaf)) 0x151756572794964 512 (.node (.node (.node .leaf 0x1526561736f6e73 525 .leaf) 0x152656c6179546f 546 .leaf) 0x153694669656c64 605 (.node (.node .leaf 0x156726644617461 723 .leaf) 0x142616c616e636573 75 .leaf)))) 0x142656566794b6579 78 (.node (.node (.node (.node (.node .leaf 0x1426f647950617274 100 .leaf) 0x14279466f726b5633 117 .leaf) 0x143616c6c48617368 118 (.node (.node .leaf 0x1436f646548617368 133 .leaf) 0x14469676573744f66 179 .leaf)) 0x1457261496e646578 212 (.node (.node (.node .leaf 0x1457468426c6f636b 218 .leaf) 0x1457468426c6f6f6d 219 .leaf) 0x146756e64496e666f 270 (.node (.node .leaf 0x14865616444617461 293 .leaf) 0x14a756e6374696f6e 334 .leaf))) 0x14b657956616c7565 347 (.node (.node (.node (.node .leaf 0x14d61796265567266 365 .leaf) 0x14d6f64756c654964 380 .leaf) 0x14d6f6d656e744f66 381 (.node (.node .leaf 0x14d756c7469736967 406 .leaf) 0x14f6666656e646572 420 .leaf)) 0x150616c6c65744964 450 (.node (.node (.node .leaf 0x150617261496e666f 456 .leaf) 0x1507265766f746573 497 .leaf) 0x15072696f72697479 499 (.node (.node .leaf 0x150726f706f73616c 501 .leaf) 0x1526566436f756e74 527 .leaf))))

/-- Positions of the keys of `types`, a subtree. -/
def typeIndex2 : KeyTree :=
  .node typeIndex0 0x1566f74696e67 718 typeIndex1

/-- Positions of the keys of `types`, a subtree. -/
def typeIndex3 : KeyTree :=
  .node (.node (.node (.node (.node (.node .leaf 0x15265706f72746572 557 .leaf) 0x1526573706f6e7365 559 (.node .leaf 0x15363686564756c65 575 .leaf)) 0x15472616e73616374 669 (.node (.node .leaf 0x156726650726f6f66 725 .leaf) 0x15765696768745632 731 .leaf)) 0x158636d4572726f72 749 (.node (.node (.node .leaf 0x158636d4f72646572 753 .leaf) 0x1417070726f76616c73 32 .leaf) 0x141757468496e646578 51 (.node (.node .leaf 0x142616c616e63654f66 72 .leaf) 0x1426f783c43616c6c3e 110 .leaf))) 0x143616c6c496e646578 120 (.node (.node (.node (.node .leaf 0x1436f7265496e646578 162 .leaf) 0x144656c61794b696e64 168 .leaf) 0x145746846696c746572 221 (.node (.node .leaf 0x1457468486561646572 227 .leaf) 0x1457869744572726f72 251 .leaf)) 0x145786974466174616c 252 (.node (.node (.node .leaf 0x1466978656455313238 264 .leaf) 0x146756e64496e646578 269 .leaf) 0x1486561727462656174 295 (.node (.node .leaf 0x14a756467656d656e74 333 .leaf) 0x14a756e6374696f6e73 339 .leaf)))) 0x14b6579547970654964 346 (.node (.node (.node (.node (.node .leaf 0x14d6573736167654964 369 .leaf) 0x14e6574776f726b4964 407 .leaf) 0x14e6577426964646572 409 (.node (.node .leaf 0x1506172616d65746572 465 .leaf) 0x1507265636f6d6d6974 491 .leaf)) 0x15072696f724c6f636b 498 (.node (.node (.node .leaf 0x150726f70496e646578 500 .leaf) 0x150726f787954797065 510 .leaf) 0x15261774f726967696e 521 (.node (.node .leaf 0x15265616450726f6f66 523 .leaf) 0x1526566436f756e7431 528 .leaf))) 0x152656c617948617368 545 (.node (.node (.node (.node .leaf 0x152656c617965724964 548 .leaf) 0x1526574726961626c65 566 .leaf) 0x15363686564756c6564 580 (.node (.node .leaf 0x1536954797065446566 609 .leaf) 0x1536956617269616e74 620 .leaf)) 0x1536c6f7452616e6765 630 (.node (.node (.node .leaf 0x15370616e496e646578 634 .leaf) 0x153746174656d656e74 639 .leaf) 0x153796e635374617465 655 (.node (.node .leaf 0x154696d65706f696e74 664 .leaf) 0x154726965496e646578 679 .leaf))))

/-- Positions of the keys of `types`, a subtree. -/
def typeIndex4 : KeyTree :=
  .node (.node (.node (.node (.node (.node .leaf 0x15672664f7574707574 724 .leaf) 0x158636d4f726967696e 757 (.node .leaf 0x158636d526573756c74 759 .leaf)) 0x141637469766547696c74 23 (.node (.node .leaf 0x142616265576569676874 67 .leaf) 0x1426c6f636b5472616365 90 .leaf)) 0x143616c6c486173684f66 119 (.node (.node (.node .leaf 0x143616c6c4f726967696e 121 .leaf) 0x1436f6c6c61746f724964 134 .leaf) 0x1436f6e66696744617461 146 (.node (.node .leaf 0x1436f6e76696374696f6e 160 .leaf) 0x14469676573744974656d 178 .leaf))) 0x14574684163636f756e74 216 (.node (.node (.node (.node .leaf 0x145746841646472657373 217 .leaf) 0x145746852656365697074 229 .leaf) 0x14574685375624b696e64 233 (.node (.node .leaf 0x14576656e74496e646578 248 .leaf) 0x145786974526561736f6e 253 .leaf)) 0x145786974526576657274 254 (.node (.node (.node .leaf 0x146656544657461696c73 263 .leaf) 0x147726f7570496e646578 290 .leaf) 0x1496e7374616e63654964 323 (.node (.node .leaf 0x14a756e6374696f6e5630 335 .leaf) 0x14a756e6374696f6e5631 336 .leaf)))) 0x14a756e6374696f6e5632 337 (.node (.node (.node (.node (.node .leaf 0x14a756e6374696f6e5633 338 .leaf) 0x14d6573736167654b6579 371 .leaf) 0x14d756c74694173736574 384 (.node (.node .leaf 0x14d756c7469706c696572 405 .leaf) 0x14f70656e546970546970 428 .leaf)) 0x14f726967696e4b696e64 433 (.node (.node (.node .leaf 0x1507265636f6d6d697473 492 .leaf) 0x150726f78795374617465 509 .leaf) 0x152616e646f6d6e657373 518 (.node (.node .leaf 0x152656e6f756e63696e67 552 .leaf) 0x15265706f727449644f66 555 .leaf))) 0x1526573706f6e73655630 560 (.node (.node (.node (.node .leaf 0x1526573706f6e73655631 561 .leaf) 0x1526573706f6e73655632 562 .leaf) 0x1526573706f6e73655633 565 (.node (.node .leaf 0x1526f756e645374617465 570 .leaf) 0x15270634d6574686f6473 571 .leaf)) 0x15363686564756c696e67 581 (.node (.node (.node .leaf 0x153656174486f6c646572 582 .leaf) 0x1536c6f744e756d626572 629 .leaf) 0x15370616e5265636f7264 635 (.node (.node .leaf 0x153746f726167654b6579 647 .leaf) 0x1546f6b656e4572726f72 665 .leaf))))

/-- Positions of the keys of `types`, a subtree. -/
def typeIndex5 : KeyTree :=
  .node typeIndex3 0x1566f74655374616765 714 typeIndex4

/-- Positions of the keys of `types`, a subtree. -/
def typeIndex6 : KeyTree :=
  .node (.node (.node (.node (.node (.node .leaf 0x158636d41737365744964 747 .leaf) 0x158636d4572726f725630 750 (.node .leaf 0x158636d4572726f725631 751 .leaf)) 0x158636d4572726f725632 752 (.node (.node .leaf 0x158636d4f726465725630 754 .leaf) 0x158636d4f726465725631 755 .leaf)) 0x158636d4f726465725632 756 (.node (.node (.node .leaf 0x158636d56657273696f6e 765 .leaf) 0x14163636f756e7444617461 11 .leaf) 0x14163636f756e7449643332 12 (.node (.node .leaf 0x14163636f756e74496e666f 14 .leaf) 0x14163636f756e74566f7465 19 .leaf))) 0x1416374697665496e646578 25 (.node (.node (.node (.node .leaf 0x1417574686f726974794964 53 .leaf) 0x142616c616e63654c6f636b 69 .leaf) 0x1426c6f636b4c656e677468 87 (.node (.node .leaf 0x1426f756e7479496e646578 102 .leaf) 0x144656c65676174696f6e73 170 .leaf)) 0x145746853796e63496e666f 236 (.node (.node (.node .leaf 0x14578697453756363656564 255 .leaf) 0x148726d704368616e6e656c 298 .leaf) 0x1496d706f72746564417578 305 (.node (.node .leaf 0x14a756e6374696f6e735631 340 .leaf) 0x14a756e6374696f6e735632 341 .leaf)))) 0x14a756e6374696f6e735633 342 (.node (.node (.node (.node (.node .leaf 0x14c65617365506572696f64 354 .leaf) 0x14d656d626572436f756e74 366 .leaf) 0x14d65737361676544617461 368 (.node (.node .leaf 0x14d6d72526f6f7448617368 379 .leaf) 0x14d756c7469417373657473 393 .leaf)) 0x14d756c74695369676e6572 404 (.node (.node (.node .leaf 0x14e6574776f726b49645633 408 .leaf) 0x14e6f6d696e6174696f6e73 413 .leaf) 0x150616765436f756e746572 445 (.node (.node .leaf 0x15065727175696e74696c6c 483 .leaf) 0x15068616e746f6d44617461 485 .leaf))) 0x15175657279537461747573 515 (.node (.node (.node (.node .leaf 0x1526177536f6c7574696f6e 522 .leaf) 0x152656c6179656446726f6d 547 .leaf) 0x1526577617264506f696e74 568 (.node (.node .leaf 0x1526f756e644e756d626572 569 .leaf) 0x153657373696f6e496e666f 586 .leaf)) 0x15370656356657273696f6e 636 (.node (.node (.node .leaf 0x153746f7261676544617461 643 .leaf) 0x153746f7265645374617465 651 .leaf) 0x1537472696b65436f756e74 652 (.node (.node .leaf 0x15461736b41646472657373 661 .leaf) 0x1556e6c6f636b4368756e6b 683 .leaf))))

/-- Positions of the keys of `types`, a subtree. -/
def typeIndex7 : KeyTree :=
  .node (.node (.node (.node (.node (.node .leaf 0x156657374696e67496e666f 712 .leaf) 0x157696e6e65727344617461 740 (.node .leaf 0x157696e6e696e6744617461 742 .leaf)) 0x14163636f756e74496e646578 13 (.node (.node .leaf 0x1416c6c6f776564536c6f7473 28 .leaf) 0x1416e6e6f756e63656d656e74 29 .leaf)) 0x1416e795369676e6174757265 30 (.node (.node (.node .leaf 0x1417373657442616c616e6365 36 .leaf) 0x1417373657444657461696c73 38 .leaf) 0x141737365744f7074696f6e73 46 (.node (.node .leaf 0x141737369676e6d656e744964 47 .leaf) 0x141756374696f6e496e646578 50 .leaf))) 0x1417574686f72697479536574 56 (.node (.node (.node (.node .leaf 0x142656566795061796c6f6164 80 .leaf) 0x14269644b696e64566f756368 84 .leaf) 0x1426c6f636b57656967687473 98 (.node (.node .leaf 0x1426f756e7479537461747573 103 .leaf) 0x1436c61737344657461696c73 130 .leaf)) 0x1436f6d7061637453636f7265 142 (.node (.node (.node .leaf 0x1436f6e7472616374496e666f 154 .leaf) 0x1436f72654f63637570696564 163 .leaf) 0x143726561746564426c6f636b 164 (.node (.node .leaf 0x1446566756e6374566f746572 167 .leaf) 0x14465706f7369744173736574 172 .leaf)))) 0x14469737061746368496e666f 184 (.node (.node (.node (.node (.node .leaf 0x1446973707574655374617465 189 .leaf) 0x1456c656374696f6e53697a65 205 .leaf) 0x145717569766f636174696f6e 209 (.node (.node .leaf 0x145746852696368426c6f636b 230 .leaf) 0x1457468537562506172616d73 234 .leaf)) 0x1457468537562526573756c74 235 (.node (.node (.node .leaf 0x147656e6572616c4b65795633 276 .leaf) 0x14964656e74697479496e666f 303 .leaf) 0x1496e636c7573696f6e466565 313 (.node (.node .leaf 0x14c6f6f6b7570536f75726365 361 .leaf) 0x14d6573736167654e6f6e6365 372 .leaf))) 0x14d756c746941646472657373 383 (.node (.node (.node (.node .leaf 0x14d756c746941737365745630 389 .leaf) 0x14d756c746941737365745631 390 .leaf) 0x14d756c746941737365745632 391 (.node (.node .leaf 0x14d756c746941737365745633 392 .leaf) 0x14f7061717565506565724964 423 .leaf)) 0x14f726967696e43616c6c6572 432 (.node (.node (.node .leaf 0x14f726967696e4b696e645630 434 .leaf) 0x14f726967696e4b696e645631 435 .leaf) 0x14f726967696e4b696e645632 436 (.node (.node .leaf 0x150616c6c6574496e666f5633 451 .leaf) 0x150656e64696e675061757365 471 .leaf))))

/-- Positions of the keys of `types`, a subtree. -/
def typeIndex8 : KeyTree :=
  .node typeIndex6 0x156616c696461746f724964 695 typeIndex7

/-- Positions of the keys of `types`, a subtree. -/
def typeIndex9 : KeyTree :=
  .node (.node (.node (.node (.node (.node .leaf 0x15175657279486f6c64696e67 511 .leaf) 0x1526567697374726174696f6e 540 (.node .leaf 0x153657373696f6e496e646578 585 .leaf)) 0x153657373696f6e4b65797331 588 (.node (.node .leaf 0x153657373696f6e4b65797332 591 .leaf) 0x153657373696f6e4b65797333 592 .leaf)) 0x153657373696f6e4b65797334 593 (.node (.node (.node .leaf 0x153657373696f6e4b65797335 594 .leaf) 0x153657373696f6e4b65797336 595 .leaf) 0x153657373696f6e4b65797337 597 (.node (.node .leaf 0x153657373696f6e4b65797338 599 .leaf) 0x153657373696f6e4b65797339 601 .leaf))) 0x153746f7261676550726f6f66 649 (.node (.node (.node (.node .leaf 0x153797374656d4f726967696e 657 .leaf) 0x156657273696f6e656458636d 711 .leaf) 0x1566f74696e67446972656374 720 (.node (.node .leaf 0x158636d417373657449645633 748 .leaf) 0x14163636f756e74537461747573 17 .leaf)) 0x1416374697665457261496e666f 22 (.node (.node (.node .leaf 0x14173736574417070726f76616c 34 .leaf) 0x14173736574496e7374616e6365 40 .leaf) 0x141737365744d65746164617461 45 (.node (.node .leaf 0x1417574686f726974794c697374 55 .leaf) 0x142616c616e6365537461747573 73 .leaf)))) 0x142616c616e636555706c6f6164 74 (.node (.node (.node (.node (.node .leaf 0x1426c6f636b4e756d6265724f66 89 .leaf) 0x1426f783c50726f706f73616c3e 111 .leaf) 0x142726964676564486561646572 115 (.node (.node .leaf 0x143616e64696461746548617368 124 .leaf) 0x1436c6173734d65746164617461 132 .leaf)) 0x144656c61794b696e6442657374 169 (.node (.node (.node .leaf 0x14469737061746368436c617373 180 .leaf) 0x144697370617463684572726f72 181 .leaf) 0x144697370757465526573756c74 188 (.node (.node .leaf 0x1456c656374696f6e5068617365 202 .leaf) 0x1456c656374696f6e53636f7265 204 .leaf))) 0x14574684163636573734c697374 214 (.node (.node (.node (.node .leaf 0x145746852696368486561646572 231 .leaf) 0x145746853796e63537461747573 237 .leaf) 0x145786368616e67654173736574 249 (.node (.node .leaf 0x146756e676962696c6974795630 271 .leaf) 0x146756e676962696c6974795631 272 .leaf)) 0x146756e676962696c6974795632 273 (.node (.node (.node .leaf 0x146756e676962696c6974795633 274 .leaf) 0x14772616e647061436f6d6d6974 282 .leaf) 0x1486f7374466e57656967687473 297 (.node (.node .leaf 0x148726d704368616e6e656c4964 299 .leaf) 0x1496e626f756e64537461747573 311 .leaf))))

/-- Positions of the keys of `types`, a subtree. -/
def typeIndex10 : KeyTree :=
  .node (.node (.node (.node (.node (.node .leaf 0x1496e737472756374696f6e5633 328 .leaf) 0x14b65794f776e657250726f6f66 345 (.node .leaf 0x14c65617365506572696f644f66 355 .leaf)) 0x14c6f7474657279436f6e666967 362 (.node (.node .leaf 0x14d756c74694173736574735631 394 .leaf) 0x14d756c74694173736574735632 395 .leaf)) 0x14d756c74694173736574735633 396 (.node (.node (.node .leaf 0x14d756c74694c6f636174696f6e 398 .leaf) 0x14e657874417574686f72697479 410 .leaf) 0x14f70656e54697046696e646572 427 (.node (.node .leaf 0x14f7065726174696e674d6f6465 429 .leaf) 0x150616765496e64657844617461 446 .leaf))) 0x150616c6c657456657273696f6e 452 (.node (.node (.node (.node .leaf 0x150616c6c6574734f726967696e 453 .leaf) 0x1506172614c6966656379636c65 457 .leaf) 0x150656e64696e674368616e6765 470 (.node (.node .leaf 0x150656e64696e67526573756d65 472 .leaf) 0x15065726d697373696f6e735631 482 .leaf)) 0x150687261676d656e53636f7265 487 (.node (.node (.node .leaf 0x150726f706f73616c496e646578 504 .leaf) 0x150726f706f73616c5374616765 505 .leaf) 0x150726f706f73616c5469746c65 506 (.node (.node .leaf 0x15265616479536f6c7574696f6e 524 .leaf) 0x1526567697374726172496e666f 539 .leaf)))) 0x15363686564756c65546f323132 578 (.node (.node (.node (.node (.node .leaf 0x15363686564756c65546f323538 579 .leaf) 0x153657373696f6e4b6579733130 589 .leaf) 0x153657373696f6e4b6579733642 596 (.node (.node .leaf 0x153657373696f6e4b6579733742 598 .leaf) 0x153657373696f6e4b6579733842 600 .leaf)) 0x153657373696f6e4b6579733942 602 (.node (.node (.node .leaf 0x1536c617368696e675370616e73 627 .leaf) 0x153746174656d656e744b696e64 640 .leaf) 0x153746f72616765486173686572 646 (.node (.node .leaf 0x153746f726167654d6f64696679 648 .leaf) 0x154417373657442616c616e6365 658 .leaf))) 0x154656c65706f72744173736574 662 (.node (.node (.node (.node .leaf 0x15472616e73616374696f6e5630 673 .leaf) 0x15472616e73616374696f6e5631 674 .leaf) 0x15472616e73616374696f6e5632 675 (.node (.node .leaf 0x15570776172644d657373616765 687 .leaf) 0x156616c696461746f7249644f66 696 .leaf)) 0x1566f74655468726573686f6c64 715 (.node (.node (.node .leaf 0x15765696768744c696d69745632 727 .leaf) 0x15765696768744c696d69745633 728 .leaf) 0x157697468647261774173736574 744 (.node (.node .leaf 0x158636d4f726967696e4b696e64 758 .leaf) 0x14163746976655265636f76657279 26 .leaf))))

/-- Positions of the keys of `types`, a subtree. -/
def typeIndex11 : KeyTree :=
  .node typeIndex9 0x1496e737472756374696f6e5632 327 typeIndex10

/-- Positions of the keys of `types`, a subtree. -/
def typeIndex12 : KeyTree :=
  .node (.node (.node (.node (.node (.node .leaf 0x1417574686f72697479496e646578 54 .leaf) 0x1426c6f636b4e756d626572466f72 88 (.node .leaf 0x1426c6f636b54726163655370616e 93 .leaf)) 0x1436f6e73756d6564576569676874 148 (.node (.node .leaf 0x1436f726541737369676e6d656e74 161 .leaf) 0x14465706f73697442616c616e6365 173 .leaf)) 0x144657374726f795769746e657373 176 (.node (.node (.node .leaf 0x14469737061746368526573756c74 186 .leaf) 0x1446f4e6f74436f6e737472756374 192 .leaf) 0x145636473615369676e6174757265 198 (.node (.node .leaf 0x1456c656374696f6e526573756c74 203 .leaf) 0x1456c656374696f6e537461747573 206 .leaf))) 0x145746843616c6c52657175657374 220 (.node (.node (.node (.node .leaf 0x145746846696c746572546f706963 224 .leaf) 0x14574685472616e73616374696f6e 238 .leaf) 0x14772616e647061507265766f7465 288 (.node (.node .leaf 0x14964656e746974794669656c6473 302 .leaf) 0x1496e626f756e6452656c61796572 310 .leaf)) 0x1496e636c75646564426c6f636b73 312 (.node (.node (.node .leaf 0x14b657956616c75654f7074696f6e 348 .leaf) 0x14d756c74695369676e6174757265 403 .leaf) 0x14e6f6d696e61746f72496e646578 414 (.node (.node .leaf 0x14f6666656e636544657461696c73 418 .leaf) 0x14f706171756554696d65536c6f74 424 .leaf)))) 0x14f7574626f756e64537461747573 441 (.node (.node (.node (.node (.node .leaf 0x1506172615363686564756c696e67 459 .leaf) 0x1507265696d616765537461747573 495 .leaf) 0x15265636f76657279436f6e666967 526 (.node (.node .leaf 0x15265666572656e64756d496e666f 530 .leaf) 0x1526567697374726172496e646578 538 .leaf)) 0x152656c6179436861696e48617368 544 (.node (.node (.node .leaf 0x152656e7450726f6a656374696f6e 553 .leaf) 0x152756e74696d6556657273696f6e 573 .leaf) 0x15363686564756c65506572696f64 576 (.node (.node .leaf 0x1536572766963655175616c697479 584 .leaf) 0x153657373696f6e4b657973313042 590 .leaf))) 0x153694c6f6f6b7570547970654964 606 (.node (.node (.node (.node .leaf 0x15369547970654465664172726179 610 .leaf) 0x153695479706544656652616e6765 615 .leaf) 0x15369547970654465665475706c65 617 (.node (.node .leaf 0x15369676e696e67436f6e74657874 626 .leaf) 0x1556e6170706c696564536c617368 680 .leaf)) 0x156616c69646174696f6e436f6465 689 (.node (.node (.node .leaf 0x156616c69646174696f6e44617461 691 .leaf) 0x156616c696461746f72436f756e74 694 .leaf) 0x156616c696461746f72496e646578 697 (.node (.node .leaf 0x156616c696461746f725072656673 699 .leaf) 0x156616c696461746f725365744964 702 .leaf))))

/-- Positions of the keys of `types`, a subtree. -/
def typeIndex13 : KeyTree :=
  .node (.node (.node (.node (.node (.node .leaf 0x1576569676874506572436c617373 730 .leaf) 0x157696c644d756c74694173736574 736 (.node .leaf 0x14163636f756e7456616c6964697479 18 .leaf)) 0x141726974686d657469634572726f72 33 (.node (.node .leaf 0x14173736574496e7374616e63655630 41 .leaf) 0x14173736574496e7374616e63655631 42 .leaf)) 0x14173736574496e7374616e63655632 43 (.node (.node (.node .leaf 0x14173736574496e7374616e63655633 44 .leaf) 0x1417574686f72697479576569676874 60 .leaf) 0x142616265426c6f636b576569676874 64 (.node (.node .leaf 0x14261636b656443616e646964617465 68 .leaf) 0x14265656679436f6d6d69746d656e74 76 .leaf))) 0x1426c6f636b54726163654576656e74 91 (.node (.node (.node (.node .leaf 0x14272696467654d6573736167654964 112 .leaf) 0x1436f6e747261637450726f6a656374 156 .leaf) 0x14469737061746368496e666f323538 185 (.node (.node .leaf 0x1446973707574654c6f636174696f6e 187 .leaf) 0x1446f776e776172644d657373616765 195 .leaf)) 0x14567726573735175657565526f6f74 200 (.node (.node (.node .leaf 0x1456c656374696f6e436f6d70757465 201 .leaf) 0x145706f6368417574686f7273686970 208 .leaf) 0x1457261526577617264506f696e7473 213 (.node (.node .leaf 0x145746853746f7261676550726f6f66 232 .leaf) 0x14578656352657475726e56616c7565 250 .leaf)))) 0x1457874656e64656442616c616e6365 257 (.node (.node (.node (.node (.node .leaf 0x1496e626f756e644c616e6544617461 309 .leaf) 0x1496e7374616e636544657461696c73 322 .leaf) 0x14d6179626552616e646f6d6e657373 364 (.node (.node .leaf 0x14d656d6265727368697050726f6f66 367 .leaf) 0x14d6573736167657350726f6f664f66 375 .leaf)) 0x14d6574616461746156657273696f6e 378 (.node (.node (.node .leaf 0x14d756c74694c6f636174696f6e5630 399 .leaf) 0x14d756c74694c6f636174696f6e5631 400 .leaf) 0x14d756c74694c6f636174696f6e5632 401 (.node (.node .leaf 0x14d756c74694c6f636174696f6e5633 402 .leaf) 0x14f70617175654d756c746961646472 421 .leaf))) 0x14f7574626f756e645061796c6f6164 440 (.node (.node (.node (.node .leaf 0x14f766572776569676874496e646578 443 .leaf) 0x15061726147656e6573697341726773 454 .leaf) 0x150617261746872656164436c61696d 466 (.node (.node .leaf 0x150617261746872656164456e747279 468 .leaf) 0x150726f7879446566696e6974696f6e 508 .leaf)) 0x15175657279526573706f6e73655633 514 (.node (.node (.node .leaf 0x15175657565436f6e66696744617461 516 .leaf) 0x15265666572656e64756d496e646578 529 .leaf) 0x1526573706f6e736556324572726f72 563 (.node (.node .leaf 0x152756e74696d654462576569676874 572 .leaf) 0x1536954797065506172616d65746572 619 .leaf))))

/-- Positions of the keys of `types`, a subtree. -/
def typeIndex14 : KeyTree :=
  .node typeIndex12 0x1566f756368696e67537461747573 722 typeIndex13

/-- Positions of the keys of `types`, a subtree. -/
def typeIndex15 : KeyTree :=
  .node (.node (.node (.node (.node (.node .leaf 0x15769746864726177526561736f6e73 745 .leaf) 0x1657468657265756d3a3a426c6f636b 767 (.node .leaf 0x1416273747261637446756e6769626c65 9 .leaf)) 0x14163636f756e74566f746553706c6974 20 (.node (.node .leaf 0x141637469766547696c7473546f74616c 24 .leaf) 0x14173736574417070726f76616c4b6579 35 .leaf)) 0x142726964676564426c6f636b48617368 113 (.node (.node (.node .leaf 0x143616e64696461746552656365697074 126 .leaf) 0x1436f6c6c6563746976654f726967696e 136 .leaf) 0x1436f6e637265746546756e6769626c65 144 (.node (.node .leaf 0x14465706f73697442616c616e63654f66 174 .leaf) 0x14469737075746553746174656d656e74 190 .leaf))) 0x1446f75626c65566f74655265706f7274 194 (.node (.node (.node (.node .leaf 0x1456432353531395369676e6174757265 199 .leaf) 0x145746846696c74657241646472657373 222 .leaf) 0x145746846696c7465724368616e676573 223 (.node (.node .leaf 0x145787472696e73696373576569676874 262 .leaf) 0x14772616e647061507265636f6d6d6974 287 .leaf)) 0x1496e69746961746554656c65706f7274 321 (.node (.node (.node .leaf 0x1496e7374616e63654d65746164617461 324 .leaf) 0x14c617374436f6e747269627574696f6e 352 .leaf) 0x14d617962654572726f72436f64655633 363 (.node (.node .leaf 0x14d6f72654174746573746174696f6e73 382 .leaf) 0x14d756c7469417373657446696c746572 385 .leaf)))) 0x14f6666636861696e4163637572616379 416 (.node (.node (.node (.node (.node .leaf 0x14f7574626f756e644c616e6544617461 438 .leaf) 0x15061726150617374436f64654d657461 458 .leaf) 0x15065724469737061746368436c617373 473 (.node (.node .leaf 0x15065726d697373696f6e4c6174657374 480 .leaf) 0x1506f727461626c655265676973747279 489 .leaf)) 0x15072656661625761736d4d6f64756c65 493 (.node (.node (.node .leaf 0x150726f706f73616c43617465676f7279 502 .leaf) 0x150726f706f73616c436f6e74656e7473 503 .leaf) 0x151756575656450617261746872656164 517 (.node (.node .leaf 0x152617742616265507265446967657374 519 .leaf) 0x15265666572656e64756d537461747573 536 .leaf))) 0x152656c6179426c6f636b4e756d626572 542 (.node (.node (.node (.node .leaf 0x152656c656173657342616c616e636573 550 .leaf) 0x15265706c6163656d656e7454696d6573 554 .leaf) 0x1526573706f6e73655632526573756c74 564 (.node (.node .leaf 0x15363686564756c655072696f72697479 577 .leaf) 0x1536954797065446566436f6d70616374 612 .leaf)) 0x153695479706544656656617269616e74 618 (.node (.node (.node .leaf 0x15369676e65645375626d697373696f6e 624 .leaf) 0x1536f6c7574696f6e537570706f727473 633 .leaf) 0x1537232353531395369676e6174757265 637 (.node (.node .leaf 0x153746f726167654368616e6765536574 642 .leaf) 0x1547265617375727950726f706f73616c 677 .leaf))))

/-- Positions of the keys of `types`, a subtree. -/
def typeIndex16 : KeyTree :=
  .node (.node (.node (.node (.node (.node .leaf 0x1566f74696e67446972656374566f7465 721 .leaf) 0x15765696768744d756c7469706c696572 729 (.node .leaf 0x157696c644d756c746941737365745631 737 .leaf)) 0x157696c644d756c746941737365745632 738 (.node (.node .leaf 0x157696c644d756c746941737365745633 739 .leaf) 0x157696e6e657273446174615475706c65 741 .leaf)) 0x157696e6e696e6744617461456e747279 743 (.node (.node (.node .leaf 0x158636d5472616974734572726f725633 760 .leaf) 0x1657468657265756d3a3a486561646572 768 .leaf) 0x1416c697665436f6e7472616374496e666f 27 (.node (.node .leaf 0x1417474657374656443616e646964617465 49 .leaf) 0x1426c6f636b4174746573746174696f6e73 86 .leaf))) 0x1426c6f636b5472616e73616374696f6e73 94 (.node (.node (.node (.node .leaf 0x14368616e676573547269655369676e616c 129 .leaf) 0x1436f6c6c61746f725369676e6174757265 135 .leaf) 0x1436f6e73656e737573456e67696e654964 147 (.node (.node .leaf 0x144656665727265644f6666656e63654f66 166 .leaf) 0x144656c6976657265644d65737361676573 171 .leaf)) 0x1446f75626c65456e636f64656443616c6c 193 (.node (.node (.node .leaf 0x14574684163636573734c6973744974656d 215 .leaf) 0x1457468657265756d4163636f756e744964 245 .leaf) 0x1457468657265756d5369676e6174757265 247 (.node (.node .leaf 0x145787472696e7369634d65746164617461 258 .leaf) 0x1486f7374436f6e66696775726174696f6e 296 .leaf)))) 0x1496e636f6d696e6750617261636861696e 314 (.node (.node (.node (.node (.node .leaf 0x14c65676163795472616e73616374696f6e 356 .leaf) 0x14d6573736167655175657565436861696e 373 .leaf) 0x150617261636861696e50726f706f73616c 463 (.node (.node .leaf 0x150726f7879416e6e6f756e63656d656e74 507 .leaf) 0x152657761726444657374696e6174696f6e 567 .leaf)) 0x152756e74696d6556657273696f6e417069 574 (.node (.node (.node .leaf 0x153695479706544656653657175656e6365 616 .leaf) 0x1556e726577617264656452656c61796572 684 .leaf) 0x156657273696f6e6564526573706f6e7365 710 (.node (.node .leaf 0x157696c6446756e676962696c6974795630 732 .leaf) 0x157696c6446756e676962696c6974795631 733 .leaf))) 0x157696c6446756e676962696c6974795632 734 (.node (.node (.node (.node .leaf 0x157696c6446756e676962696c6974795633 735 .leaf) 0x158636d704d657373616765466f726d6174 766 .leaf) 0x1657468657265756d3a3a52656365697074 769 (.node (.node .leaf 0x178636d3a3a56657273696f6e656458636d 781 .leaf) 0x1417574686f726974795365744368616e6765 57 .leaf)) 0x1417574686f726974795369676e6174757265 59 (.node (.node (.node .leaf 0x1426f756e7479537461747573416374697665 104 .leaf) 0x142726964676564426c6f636b4e756d626572 114 .leaf) 0x1436f6d7061637441737369676e6d656e7473 138 (.node (.node .leaf 0x1436f6e747261637445786563526573756c74 150 .leaf) 0x1436f6e747261637453746f726167654b6579 159 .leaf))))

/-- Positions of the keys of `types`, a subtree. -/
def typeIndex17 : KeyTree :=
  .node typeIndex15 0x1566f74696e6744656c65676174696e67 719 typeIndex16

/-- Positions of the keys of `types`, a subtree. -/
def typeIndex18 : KeyTree :=
  .node (.node (.node (.node (.node (.node .leaf 0x1454950313535395472616e73616374696f6e 196 .leaf) 0x1454950323933305472616e73616374696f6e 197 (.node .leaf 0x145787472696e7369635369676e6174757265 261 .leaf)) 0x146756c6c4964656e74696669636174696f6e 268 (.node (.node .leaf 0x1496e626f756e6448726d704d657373616765 307 .leaf) 0x1496e646976696475616c4578706f73757265 318 .leaf)) 0x1496e697469616c697a6174696f6e44617461 319 (.node (.node (.node .leaf 0x1496e7374616e746961746552657175657374 325 .leaf) 0x1496e737472756374696f6e57656967687473 329 .leaf) 0x14d756c7469417373657446696c7465725631 386 (.node (.node .leaf 0x14d756c7469417373657446696c7465725632 387 .leaf) 0x14d756c7469417373657446696c7465725633 388 .leaf))) 0x14f70617175654e6574776f726b5374617465 422 (.node (.node (.node (.node .leaf 0x14f7574626f756e644d657373616765466565 439 .leaf) 0x15061726156616c696461746f72496e646578 460 .leaf) 0x15065726d697373696f6e56657273696f6e73 481 (.node (.node .leaf 0x1536954797065446566436f6d706f73697465 613 .leaf) 0x15369547970654465665072696d6974697665 614 .leaf)) 0x15369676e65645375626d697373696f6e4f66 625 (.node (.node (.node .leaf 0x153797374656d496e686572656e7444617461 656 .leaf) 0x15472616365426c6f636b526573706f6e7365 667 .leaf) 0x1557067726164655265737472696374696f6e 686 (.node (.node .leaf 0x156616c69646174696f6e436f646548617368 690 .leaf) 0x156616c69646174696f6e4461746154797065 692 .leaf)))) 0x156616c696461746f725369676e6174757265 703 (.node (.node (.node (.node (.node .leaf 0x17363686564756c653a3a5072696f72697479 773 .leaf) 0x13c5420617320436f6e6669673e3a3a43616c6c 5 .leaf) 0x1416272696467656448726d704368616e6e656c 8 (.node (.node .leaf 0x141627374726163744e6f6e46756e6769626c65 10 .leaf) 0x14163636f756e74566f74655374616e64617264 21 .leaf)) 0x1417373657444657374726f795769746e657373 37 (.node (.node (.node .leaf 0x1417574686f726974795365744368616e676573 58 .leaf) 0x142616265417574686f72697479576569676874 63 .leaf) 0x1426c6f636b54726163654576656e7444617461 92 (.node (.node .leaf 0x143616e64696461746544657363726970746f72 123 .leaf) 0x1436f6d7061637453636f7265436f6d70616374 143 .leaf))) 0x1436f6e63726574654e6f6e46756e6769626c65 145 (.node (.node (.node (.node .leaf 0x1436f6e747261637443616c6c52657175657374 149 .leaf) 0x14465706f736974526573657276654173736574 175 .leaf) 0x144697370617463684572726f724d6f64756c65 182 (.node (.node .leaf 0x14469737075746553746174656d656e74536574 191 .leaf) 0x145746846696c746572546f706963456e747279 225 .leaf)) 0x145746846696c746572546f706963496e6e6572 226 (.node (.node (.node .leaf 0x147656e657269634d756c746941646472657373 277 .leaf) 0x14772616e64706145717569766f636174696f6e 283 .leaf) 0x14964656e74696669636174696f6e5475706c65 301 (.node (.node .leaf 0x1496e626f756e6448726d704d65737361676573 308 .leaf) 0x14c6f63616c56616c69646174696f6e44617461 359 .leaf))))

/-- Positions of the keys of `types`, a subtree. -/
def typeIndex19 : KeyTree :=
  .node (.node (.node (.node (.node (.node .leaf 0x15065724469737061746368436c617373553332 474 .leaf) 0x15175657279526573706f6e7365496e666f5633 513 (.node .leaf 0x15265706f72746564526f756e64537461746573 556 .leaf)) 0x15265736572766541737365744465706f736974 558 (.node (.node .leaf 0x153657373696f6e4b657973506f6c6b61646f74 603 .leaf) 0x153746f7261676546756e6374696f6e54797065 644 .leaf)) 0x153746f72656450656e64696e674368616e6765 650 (.node (.node (.node .leaf 0x15375626d697373696f6e496e64696365734f66 654 .leaf) 0x15472616e73616374696f6e5072696f72697479 670 .leaf) 0x1556e6170706c696564536c6173684f74686572 682 (.node (.node .leaf 0x156616c69646974794174746573746174696f6e 704 .leaf) 0x156657273696f6e65644d756c74694173736574 707 .leaf))) 0x1736c617368696e673a3a5370616e496e646578 777 (.node (.node (.node (.node .leaf 0x1284163636f756e7449642c2042616c616e636529 1 .leaf) 0x1417574686f72697479446973636f766572794964 52 .leaf) 0x1417661696c6162696c6974794269746669656c64 61 (.node (.node .leaf 0x142616c616e63654c6f636b3c42616c616e63653e 71 .leaf) 0x143616e646964617465436f6d6d69746d656e7473 122 .leaf)) 0x14574685472616e73616374696f6e416374696f6e 239 (.node (.node (.node .leaf 0x14574685472616e73616374696f6e537461747573 243 .leaf) 0x1457468657265756d4c6f6f6b7570536f75726365 246 .leaf) 0x145787472696e7369634d65746164617461563134 259 (.node (.node .leaf 0x145787472696e7369634d65746164617461563135 260 .leaf) 0x1476c6f62616c56616c69646174696f6e44617461 280 .leaf)))) 0x14772616e6470614a757374696669636174696f6e 286 (.node (.node (.node (.node (.node .leaf 0x14d657373616765496e67657374696f6e54797065 370 .leaf) 0x14e657874436f6e66696744657363726970746f72 411 .leaf) 0x150617261746872656164436c61696d5175657565 467 (.node (.node .leaf 0x153695479706544656642697453657175656e6365 611 .leaf) 0x15441737365744465706f73697442616c616e6365 659 .leaf)) 0x15472616e73616374696f6e5369676e6174757265 672 (.node (.node (.node .leaf 0x156657273696f6e65644d756c7469417373657473 708 .leaf) 0x14261626545717569766f636174696f6e50726f6f66 66 .leaf) 0x142656566794e657874417574686f72697479536574 79 (.node (.node .leaf 0x142656566795369676e6564436f6d6d69746d656e74 81 .leaf) 0x1427566666572656453657373696f6e4368616e6765 116 .leaf))) 0x1436f6e747261637450726f6a656374536f75726365 158 (.node (.node (.node (.node .leaf 0x1437573746f6d56616c75654d657461646174613135 165 .leaf) 0x1456e636f64656446696e616c69747950726f6f6673 207 .leaf) 0x14574685472616e73616374696f6e52657175657374 241 (.node (.node .leaf 0x1466f726b5472656550656e64696e674368616e6765 266 .leaf) 0x1496e746572696f724d756c74694c6f636174696f6e 330 .leaf)) 0x14e6f6d696e61746f72496e646578436f6d70616374 415 (.node (.node (.node .leaf 0x150616c6c657443616c6c4d65746164617461563134 447 .leaf) 0x150617261636861696e496e686572656e7444617461 462 .leaf) 0x1526567697374726174696f6e4a756467656d656e74 541 (.node (.node .leaf 0x152656c6179436861696e426c6f636b4e756d626572 543 .leaf) 0x1546f6d6273746f6e65436f6e7472616374496e666f 666 .leaf))))

/-- Positions of the keys of `types`, a subtree. -/
def typeIndex20 : KeyTree :=
  .node typeIndex18 0x14f7574626f756e6448726d704d657373616765 437 typeIndex19

/-- Positions of the keys of `types`, a subtree. -/
def typeIndex21 : KeyTree :=
  .node (.node (.node (.node (.node (.node .leaf 0x156616c696461746f72496e646578436f6d70616374 698 .leaf) 0x1566563496e626f756e6448726d704d657373616765 705 (.node .leaf 0x156657273696f6e4d6967726174696f6e5374616765 706 .leaf)) 0x1657468657265756d3a3a5472616e73616374696f6e 770 (.node (.node .leaf 0x14261626545706f6368436f6e66696775726174696f6e 65 .leaf) 0x1436f6d7061637441737369676e6d656e7473566f7465 140 .leaf)) 0x14772616e6470615369676e6564507265636f6d6d6974 289 (.node (.node (.node .leaf 0x148726d704f70656e4368616e6e656c52657175657374 300 .leaf) 0x14964656e74697479496e666f4164646974696f6e616c 304 .leaf) 0x1496e626f756e64446f776e776172644d657373616765 306 (.node (.node .leaf 0x1496e636f6d696e6750617261636861696e4669786564 316 .leaf) 0x1496e7374616e746961746552657475726e56616c7565 326 .leaf))) 0x14c61737452756e74696d6555706772616465496e666f 353 (.node (.node (.node (.node .leaf 0x14d6573736167696e675374617465536e617073686f74 376 .leaf) 0x14e657874436f6e66696744657363726970746f725631 412 .leaf) 0x150616c6c65744572726f724d65746164617461563134 448 (.node (.node .leaf 0x150616c6c65744576656e744d65746164617461563134 449 .leaf) 0x150617261636861696e73496e686572656e7444617461 464 .leaf)) 0x152617742616265507265446967657374436f6d706174 520 (.node (.node (.node .leaf 0x15265666572656e64756d496e666f46696e6973686564 535 .leaf) 0x1536f6c7574696f6e4f72536e617073686f7453697a65 631 .leaf) 0x153746f7261676546756e6374696f6e54797065563134 645 (.node (.node .leaf 0x156657273696f6e65644d756c74694c6f636174696f6e 709 .leaf) 0x17363686e6f72726b656c3a3a52616e646f6d6e657373 774 .leaf)))) 0x1436f6e747261637445786563526573756c74546f323535 153 (.node (.node (.node (.node (.node .leaf 0x1436f6e747261637450726f6a656374436f6e7472616374 157 .leaf) 0x14574685472616e73616374696f6e436f6e646974696f6e 240 .leaf) 0x14574685472616e73616374696f6e5369676e6174757265 242 (.node (.node .leaf 0x147656e65726963506f727461626c655265676973747279 278 .leaf) 0x1496e636f6d696e6750617261636861696e4465706c6f79 315 .leaf)) 0x1496e697469617465526573657276655769746864726177 320 (.node (.node (.node .leaf 0x1496e746572696f724d756c74694c6f636174696f6e5633 331 .leaf) 0x14d6573736167657344656c697665727950726f6f664f66 374 .leaf) 0x14f6666636861696e4163637572616379436f6d70616374 417 (.node (.node .leaf 0x150617261636861696e44697370617463684f726967696e 461 .leaf) 0x150657273697374656456616c69646174696f6e44617461 484 .leaf))) 0x1507265696d616765537461747573417661696c61626c65 496 (.node (.node (.node (.node .leaf 0x15265676973746572656450617261636861696e496e666f 537 .leaf) 0x15472616e7369656e7456616c69646174696f6e44617461 676 .leaf) 0x1556e726577617264656452656c61796572735374617465 685 (.node (.node .leaf 0x1736c617368696e673a3a536c617368696e675370616e73 776 .leaf) 0x1416272696467656443616e64696461746552656365697074 6 .leaf)) 0x14163636f756e74496e666f5769746850726f766964657273 15 (.node (.node (.node .leaf 0x1426f783c3c5420617320436f6e6669673e3a3a43616c6c3e 108 .leaf) 0x14368616e67657354726965436f6e66696775726174696f6e 128 .leaf) 0x1436f6d7061637441737369676e6d656e74734c6174657374 139 (.node (.node .leaf 0x1436f6d7061637441737369676e6d656e7473576974683234 141 .leaf) 0x14578706c696369744469737075746553746174656d656e74 256 .leaf))))

/-- Positions of the keys of `types`, a subtree. -/
def typeIndex22 : KeyTree :=
  .node (.node (.node (.node (.node (.node .leaf 0x14772616e64706145717569766f636174696f6e50726f6f66 284 .leaf) 0x14772616e64706145717569766f636174696f6e56616c7565 285 .leaf) 0x14d756c74694469737075746553746174656d656e74536574 397 (.node (.node .leaf 0x15072656661625761736d4d6f64756c655265736572766564 494 .leaf) 0x156616c69646174696f6e46756e6374696f6e506172616d73 693 .leaf)) 0x17363686e6f72726b656c3a3a5261775652464f7574707574 775 (.node (.node (.node .leaf 0x14162726964676564486f7374436f6e66696775726174696f6e 7 .leaf) 0x1426f756e747953746174757350656e64696e675061796f7574 106 .leaf) 0x1436f6d6d697474656443616e64696461746552656365697074 137 (.node (.node .leaf 0x1436f6e747261637445786563526573756c7453756363657373 151 .leaf) 0x1436f6e7472616374496e7374616e7469617465526573756c74 155 .leaf))) 0x145717569766f636174696f6e50726f6f663c4865616465723e 211 (.node (.node (.node (.node .leaf 0x1466f726b5472656550656e64696e674368616e67654e6f6465 267 .leaf) 0x14a757374696669636174696f6e4e6f74696669636174696f6e 343 .leaf) 0x153657373696f6e496e666f56616c696461746f7247726f7570 587 (.node (.node .leaf 0x156616c69644469737075746553746174656d656e744b696e64 688 .leaf) 0x156616c696461746f72507265667357697468426c6f636b6564 700 .leaf)) 0x1776569676874733a3a45787472696e73696373576569676874 780 (.node (.node (.node .leaf 0x1417661696c6162696c6974794269746669656c645265636f7264 62 .leaf) 0x15369676e6564417661696c6162696c6974794269746669656c64 621 .leaf) 0x15369676e6564457874656e73696f6e4d65746164617461563134 623 (.node (.node .leaf 0x1426f756e747953746174757343757261746f7250726f706f736564 105 .leaf) 0x1496e76616c69644469737075746553746174656d656e744b696e64 332 .leaf)))) 0x15369676e6564417661696c6162696c6974794269746669656c6473 622 (.node (.node (.node (.node (.node .leaf 0x143616e64696461746550656e64696e67417661696c6162696c697479 125 .leaf) 0x156616c696461746f72507265667357697468436f6d6d697373696f6e 701 .leaf) 0x14163636f756e74496e666f57697468547269706c65526566436f756e74 16 (.node (.node .leaf 0x17363686564756c653a3a506572696f643c426c6f636b4e756d6265723e 772 .leaf) 0x1426f783c3c542061732054726169743c493e3e3a3a50726f706f73616c3e 109 .leaf)) 0x1436f6e747261637445786563526573756c7453756363657373546f323535 152 (.node (.node (.node .leaf 0x1426f783c3c5420617320436f6e6669673c493e3e3a3a50726f706f73616c3e 107 .leaf) 0x1736c617368696e673a3a5370616e5265636f72643c42616c616e63654f663e 778 .leaf) 0x142616c616e63654c6f636b3c42616c616e63652c20426c6f636b4e756d6265723e 70 (.node (.node .leaf 0x14d6573736167696e675374617465536e617073686f74456772657373456e747279 377 .leaf) 0x15265666572656e64756d496e666f3c426c6f636b4e756d6265722c20486173683e 533 .leaf))) 0x15374616b696e674c65646765723c4163636f756e7449642c2042616c616e63654f663e 638 (.node (.node (.node (.node .leaf 0x145717569766f636174696f6e50726f6f663c486173682c20426c6f636b4e756d6265723e 210 .leaf) 0x1556e6170706c696564536c6173683c4163636f756e7449642c2042616c616e63654f663e 681 .leaf) 0x15265666572656e64756d496e666f3c426c6f636b4e756d6265722c2050726f706f73616c3e 534 (.node (.node .leaf 0x15265666572656e64756d496e666f3c426c6f636b4e756d6265722c20486173682c2042616c616e63653e 531 .leaf) 0x13c417574686f7269747949642061732052756e74696d654170705075626c69633e3a3a5369676e6174757265 4 .leaf)) 0x15265666572656e64756d496e666f3c426c6f636b4e756d6265722c20486173682c2042616c616e63654f663e 532 (.node (.node (.node .leaf 0x14f6666656e636544657461696c733c4163636f756e7449642c204964656e74696669636174696f6e5475706c653e 419 .leaf) 0x173757065723a3a696e697469616c697a6174696f6e646174613c627269646765646865616465723c742c20693e3e 779 .leaf) 0x14f70656e5469703c4163636f756e7449642c2042616c616e63654f662c20426c6f636b4e756d6265722c20486173683e 426 (.node (.node .leaf 0x12842616c616e63654f663c542c20493e2c204269644b696e643c4163636f756e7449642c2042616c616e63654f663c542c20493e3e29 2 .leaf) 0x128426f756e6465645665633c50726f7879446566696e6974696f6e3c4163636f756e7449642c50726f7879547970652c426c6f636b4e756d6265723e2c4d617850726f786965733e2c42616c616e63654f6629 3 .leaf))))

/-- Positions of the keys of `types`, a subtree. -/
def typeIndex23 : KeyTree :=
  .node typeIndex21 0x1476c6f62616c56616c69646174696f6e5363686564756c65 281 typeIndex22

/-- Positions of the keys of `types`. -/
def typeIndex : KeyTree :=
  (.node (.node (.node typeIndex2 0x152656c6561736573 549 typeIndex5) 0x154726163654572726f72 668 (.node typeIndex8 0x1506f727461626c6554797065 490 typeIndex11)) 0x141737369676e6d656e744b696e64 48 (.node (.node typeIndex14 0x1536f6c7574696f6e537570706f7274 632 typeIndex17) 0x144697370617463684665655061796d656e74 183 (.node typeIndex20 0x15472616e73616374696f6e5265636f766572794964 671 typeIndex23)))

/-- Positions of the keys of `classes`, a subtree. -/
def classIndex0 : KeyTree :=
  .node (.node (.node (.node (.node (.node .leaf 0x1626964 82 .leaf) 0x1676173 275 (.node .leaf 0x16b6579 344 .leaf)) 0x16c6f67 360 (.node (.node .leaf 0x178636d 745 .leaf) 0x16b657973 349 .leaf)) 0x16b696e64 350 (.node (.node (.node .leaf 0x170617973 469 .leaf) 0x1736c6f74 627 .leaf) 0x174657874 662 (.node (.node .leaf 0x1766f7465 712 .leaf) 0x1265b75385d 0 .leaf))) 0x16170696964 31 (.node (.node (.node (.node .leaf 0x16831303234 291 .leaf) 0x16832303438 292 .leaf) 0x1696e646578 317 (.node (.node .leaf 0x16f72646572 430 .leaf) 0x16f776e6572 444 .leaf)) 0x17068617365 486 (.node (.node (.node .leaf 0x17365746964 603 .leaf) 0x17375626964 652 .leaf) 0x174616c6c79 659 (.node (.node .leaf 0x1766f746572 715 .leaf) 0x1766f746573 716 .leaf)))) 0x178636d7630 760 (.node (.node (.node (.node (.node .leaf 0x178636d7631 761 .leaf) 0x178636d7632 762 .leaf) 0x178636d7633 763 (.node (.node .leaf 0x1626964646572 85 .leaf) 0x1626f64796964 99 .leaf)) 0x1626f756e7479 101 (.node (.node (.node .leaf 0x1646967657374 177 .leaf) 0x16574686c6f67 228 .leaf) 0x1686561646572 294 (.node (.node .leaf 0x16c616e656964 351 .leaf) 0x16c696d697473 357 .leaf))) 0x16f726967696e 431 (.node (.node (.node (.node .leaf 0x1706172616964 455 .leaf) 0x1706572696f64 478 .leaf) 0x1706572753136 475 (.node (.node .leaf 0x1706f696e7473 488 .leaf) 0x172656d61726b 551 .leaf)) 0x1736565646f66 582 (.node (.node (.node .leaf 0x1736970617468 606 .leaf) 0x1736974797065 607 .leaf) 0x1737461747573 640 (.node (.node .leaf 0x1747269656964 677 .leaf) 0x1766f74696e67 717 .leaf))))

/-- Positions of the keys of `classes`, a subtree. -/
def classIndex1 : KeyTree :=
  .node (.node (.node (.node (.node (.node .leaf 0x161737365746964 39 .leaf) 0x162656566796964 77 (.node .leaf 0x16269646b696e64 83 .leaf)) 0x1626c6f636b7630 95 (.node (.node .leaf 0x1626c6f636b7631 96 .leaf) 0x1626c6f636b7632 97 .leaf)) 0x1636861696e6964 127 (.node (.node (.node .leaf 0x1636c6173736964 131 .leaf) 0x1657468776f726b 244 .leaf) 0x1666f7263696e67 265 (.node (.node .leaf 0x167696c74626964 279 .leaf) 0x16c696e6b616765 358 .leaf))) 0x16f70656e746970 425 (.node (.node (.node (.node .leaf 0x16f7574636f6d65 442 .leaf) 0x170657262696c6c 476 .leaf) 0x170657263656e74 477 (.node (.node .leaf 0x17065726d696c6c 479 .leaf) 0x171756572796964 512 .leaf)) 0x1726561736f6e73 525 (.node (.node (.node .leaf 0x172656c6179746f 546 .leaf) 0x173696669656c64 604 .leaf) 0x176726664617461 722 (.node (.node .leaf 0x162616c616e636573 75 .leaf) 0x162656566796b6579 78 .leaf)))) 0x1626f647970617274 100 (.node (.node (.node (.node (.node .leaf 0x16279666f726b7633 117 .leaf) 0x163616c6c68617368 118 .leaf) 0x1636f646568617368 133 (.node (.node .leaf 0x16469676573746f66 179 .leaf) 0x1657261696e646578 212 .leaf)) 0x1657468626c6f636b 218 (.node (.node (.node .leaf 0x1657468626c6f6f6d 219 .leaf) 0x166756e64696e666f 270 .leaf) 0x16865616464617461 293 (.node (.node .leaf 0x16a756e6374696f6e 334 .leaf) 0x16b657976616c7565 347 .leaf))) 0x16d61796265767266 365 (.node (.node (.node (.node .leaf 0x16d6f64756c656964 380 .leaf) 0x16d6f6d656e746f66 381 .leaf) 0x16d756c7469736967 406 (.node (.node .leaf 0x16f6666656e646572 420 .leaf) 0x170616c6c65746964 450 .leaf)) 0x170617261696e666f 456 (.node (.node (.node .leaf 0x1707265766f746573 497 .leaf) 0x17072696f72697479 499 .leaf) 0x170726f706f73616c 501 (.node (.node .leaf 0x1726566636f756e74 527 .leaf) 0x172656c6561736573 549 .leaf))))

/-- Positions of the keys of `classes`, a subtree. -/
def classIndex2 : KeyTree :=
  .node classIndex0 0x1776569676874 725 classIndex1

/-- Positions of the keys of `classes`, a subtree. -/
def classIndex3 : KeyTree :=
  .node (.node (.node (.node (.node (.node .leaf 0x1726573706f6e7365 559 .leaf) 0x17363686564756c65 574 (.node .leaf 0x17472616e73616374 668 .leaf)) 0x176726670726f6f66 724 (.node (.node .leaf 0x17765696768747632 730 .leaf) 0x178636d6572726f72 748 .leaf)) 0x178636d6f72646572 752 (.node (.node (.node .leaf 0x1617070726f76616c73 32 .leaf) 0x161757468696e646578 51 .leaf) 0x162616c616e63656f66 72 (.node (.node .leaf 0x1626f783c63616c6c3e 110 .leaf) 0x163616c6c696e646578 120 .leaf))) 0x1636f7265696e646578 162 (.node (.node (.node (.node .leaf 0x164656c61796b696e64 168 .leaf) 0x165746866696c746572 221 .leaf) 0x1657468686561646572 227 (.node (.node .leaf 0x1657869746572726f72 251 .leaf) 0x165786974666174616c 252 .leaf)) 0x1666978656475313238 264 (.node (.node (.node .leaf 0x166756e64696e646578 269 .leaf) 0x1686561727462656174 295 .leaf) 0x16a756467656d656e74 333 (.node (.node .leaf 0x16a756e6374696f6e73 339 .leaf) 0x16b6579747970656964 346 .leaf)))) 0x16d6573736167656964 369 (.node (.node (.node (.node (.node .leaf 0x16e6574776f726b6964 407 .leaf) 0x16e6577626964646572 409 .leaf) 0x1706172616d65746572 465 (.node (.node .leaf 0x1707265636f6d6d6974 491 .leaf) 0x17072696f726c6f636b 498 .leaf)) 0x170726f70696e646578 500 (.node (.node (.node .leaf 0x170726f787974797065 510 .leaf) 0x17261776f726967696e 521 .leaf) 0x17265616470726f6f66 523 (.node (.node .leaf 0x1726566636f756e7431 528 .leaf) 0x172656c617965726964 548 .leaf))) 0x172656c617968617368 545 (.node (.node (.node (.node .leaf 0x1726574726961626c65 565 .leaf) 0x17363686564756c6564 579 .leaf) 0x1736974797065646566 608 (.node (.node .leaf 0x1736976617269616e74 619 .leaf) 0x1736c6f7472616e6765 629 .leaf)) 0x17370616e696e646578 633 (.node (.node (.node .leaf 0x173746174656d656e74 638 .leaf) 0x173796e637374617465 654 .leaf) 0x174696d65706f696e74 663 (.node (.node .leaf 0x174726965696e646578 678 .leaf) 0x1766f74657374616765 713 .leaf))))

/-- Positions of the keys of `classes`, a subtree. -/
def classIndex4 : KeyTree :=
  .node (.node (.node (.node (.node (.node .leaf 0x178636d6f726967696e 756 .leaf) 0x178636d726573756c74 758 (.node .leaf 0x161637469766567696c74 23 .leaf)) 0x162616265776569676874 67 (.node (.node .leaf 0x1626c6f636b7472616365 90 .leaf) 0x163616c6c686173686f66 119 .leaf)) 0x163616c6c6f726967696e 121 (.node (.node (.node .leaf 0x1636f6c6c61746f726964 134 .leaf) 0x1636f6e66696764617461 146 .leaf) 0x1636f6e76696374696f6e 160 (.node (.node .leaf 0x16469676573746974656d 178 .leaf) 0x16574686163636f756e74 216 .leaf))) 0x165746861646472657373 217 (.node (.node (.node (.node .leaf 0x165746872656365697074 229 .leaf) 0x16574687375626b696e64 233 .leaf) 0x16576656e74696e646578 248 (.node (.node .leaf 0x165786974726561736f6e 253 .leaf) 0x165786974726576657274 254 .leaf)) 0x166656564657461696c73 263 (.node (.node (.node .leaf 0x167726f7570696e646578 290 .leaf) 0x1696e7374616e63656964 323 .leaf) 0x16a756e6374696f6e7630 335 (.node (.node .leaf 0x16a756e6374696f6e7631 336 .leaf) 0x16a756e6374696f6e7632 337 .leaf)))) 0x16a756e6374696f6e7633 338 (.node (.node (.node (.node (.node .leaf 0x16d6573736167656b6579 371 .leaf) 0x16d756c74696173736574 384 .leaf) 0x16d756c7469706c696572 405 (.node (.node .leaf 0x16f70656e746970746970 428 .leaf) 0x16f726967696e6b696e64 433 .leaf)) 0x1707265636f6d6d697473 492 (.node (.node (.node .leaf 0x170726f78797374617465 509 .leaf) 0x172616e646f6d6e657373 518 .leaf) 0x172656e6f756e63696e67 552 (.node (.node .leaf 0x17265706f727469646f66 555 .leaf) 0x1726573706f6e73657630 560 .leaf))) 0x1726573706f6e73657631 561 (.node (.node (.node (.node .leaf 0x1726573706f6e73657632 562 .leaf) 0x1726573706f6e73657633 564 .leaf) 0x1726f756e647374617465 569 (.node (.node .leaf 0x17270636d6574686f6473 570 .leaf) 0x17363686564756c696e67 580 .leaf)) 0x173656174686f6c646572 581 (.node (.node (.node .leaf 0x1736c6f746e756d626572 628 .leaf) 0x17370616e7265636f7264 634 .leaf) 0x173746f726167656b6579 646 (.node (.node .leaf 0x1746f6b656e6572726f72 664 .leaf) 0x174726163656572726f72 667 .leaf))))

/-- Positions of the keys of `classes`, a subtree. -/
def classIndex5 : KeyTree :=
  .node classIndex3 0x17672666f7574707574 723 classIndex4

/-- Positions of the keys of `classes`, a subtree. -/
def classIndex6 : KeyTree :=
  .node (.node (.node (.node (.node (.node .leaf 0x178636d6572726f727630 749 .leaf) 0x178636d6572726f727631 750 (.node .leaf 0x178636d6572726f727632 751 .leaf)) 0x178636d6f726465727630 753 (.node (.node .leaf 0x178636d6f726465727631 754 .leaf) 0x178636d6f726465727632 755 .leaf)) 0x178636d76657273696f6e 764 (.node (.node (.node .leaf 0x16163636f756e7464617461 11 .leaf) 0x16163636f756e7469643332 12 .leaf) 0x16163636f756e74696e666f 14 (.node (.node .leaf 0x16163636f756e74766f7465 19 .leaf) 0x1616374697665696e646578 25 .leaf))) 0x1617574686f726974796964 53 (.node (.node (.node (.node .leaf 0x162616c616e63656c6f636b 69 .leaf) 0x1626c6f636b6c656e677468 87 .leaf) 0x1626f756e7479696e646578 102 (.node (.node .leaf 0x164656c65676174696f6e73 170 .leaf) 0x165746873796e63696e666f 236 .leaf)) 0x16578697473756363656564 255 (.node (.node (.node .leaf 0x168726d706368616e6e656c 298 .leaf) 0x1696d706f72746564617578 305 .leaf) 0x16a756e6374696f6e737631 340 (.node (.node .leaf 0x16a756e6374696f6e737632 341 .leaf) 0x16a756e6374696f6e737633 342 .leaf)))) 0x16c65617365706572696f64 354 (.node (.node (.node (.node (.node .leaf 0x16d656d626572636f756e74 366 .leaf) 0x16d65737361676564617461 368 .leaf) 0x16d6d72726f6f7468617368 379 (.node (.node .leaf 0x16d756c7469617373657473 393 .leaf) 0x16d756c74697369676e6572 404 .leaf)) 0x16e6574776f726b69647633 408 (.node (.node (.node .leaf 0x16e6f6d696e6174696f6e73 413 .leaf) 0x170616765636f756e746572 445 .leaf) 0x17065727175696e74696c6c 483 (.node (.node .leaf 0x17068616e746f6d64617461 485 .leaf) 0x17175657279737461747573 515 .leaf))) 0x1726177736f6c7574696f6e 522 (.node (.node (.node (.node .leaf 0x172656c6179656466726f6d 547 .leaf) 0x1726577617264706f696e74 567 .leaf) 0x1726f756e646e756d626572 568 (.node (.node .leaf 0x173657373696f6e696e666f 585 .leaf) 0x17370656376657273696f6e 635 .leaf)) 0x173746f7261676564617461 642 (.node (.node (.node .leaf 0x173746f7265647374617465 650 .leaf) 0x1737472696b65636f756e74 651 .leaf) 0x17461736b61646472657373 660 (.node (.node .leaf 0x1756e6c6f636b6368756e6b 682 .leaf) 0x176616c696461746f726964 694 .leaf))))

/-- Positions of the keys of `classes`, a subtree. -/
def classIndex7 : KeyTree :=
  .node (.node (.node (.node (.node (.node .leaf 0x177696e6e65727364617461 739 .leaf) 0x177696e6e696e6764617461 741 (.node .leaf 0x16163636f756e74696e646578 13 .leaf)) 0x1616c6c6f776564736c6f7473 28 (.node (.node .leaf 0x1616e6e6f756e63656d656e74 29 .leaf) 0x1616e797369676e6174757265 30 .leaf)) 0x1617373657462616c616e6365 36 (.node (.node (.node .leaf 0x1617373657464657461696c73 38 .leaf) 0x161737365746f7074696f6e73 46 .leaf) 0x161737369676e6d656e746964 47 (.node (.node .leaf 0x161756374696f6e696e646578 50 .leaf) 0x1617574686f72697479736574 56 .leaf))) 0x162656566797061796c6f6164 80 (.node (.node (.node (.node .leaf 0x16269646b696e64766f756368 84 .leaf) 0x1626c6f636b77656967687473 98 .leaf) 0x1626f756e7479737461747573 103 (.node (.node .leaf 0x1636c61737364657461696c73 130 .leaf) 0x1636f6d7061637473636f7265 142 .leaf)) 0x1636f6e7472616374696e666f 154 (.node (.node (.node .leaf 0x1636f72656f63637570696564 163 .leaf) 0x163726561746564626c6f636b 164 .leaf) 0x1646566756e6374766f746572 167 (.node (.node .leaf 0x16465706f7369746173736574 172 .leaf) 0x16469737061746368696e666f 184 .leaf)))) 0x1646973707574657374617465 189 (.node (.node (.node (.node (.node .leaf 0x1656c656374696f6e73697a65 205 .leaf) 0x165717569766f636174696f6e 209 .leaf) 0x165746872696368626c6f636b 230 (.node (.node .leaf 0x1657468737562706172616d73 234 .leaf) 0x1657468737562726573756c74 235 .leaf)) 0x167656e6572616c6b65797633 276 (.node (.node (.node .leaf 0x16964656e74697479696e666f 303 .leaf) 0x1696e636c7573696f6e666565 313 .leaf) 0x16c6f6f6b7570736f75726365 361 (.node (.node .leaf 0x16d6573736167656e6f6e6365 372 .leaf) 0x16d756c746961646472657373 383 .leaf))) 0x16d756c746961737365747630 389 (.node (.node (.node (.node .leaf 0x16d756c746961737365747631 390 .leaf) 0x16d756c746961737365747632 391 .leaf) 0x16d756c746961737365747633 392 (.node (.node .leaf 0x16f7061717565706565726964 423 .leaf) 0x16f726967696e63616c6c6572 432 .leaf)) 0x16f726967696e6b696e647630 434 (.node (.node (.node .leaf 0x16f726967696e6b696e647631 435 .leaf) 0x16f726967696e6b696e647632 436 .leaf) 0x170616c6c6574696e666f7633 451 (.node (.node .leaf 0x170656e64696e677061757365 471 .leaf) 0x1706f727461626c6574797065 490 .leaf))))

/-- Positions of the keys of `classes`, a subtree. -/
def classIndex8 : KeyTree :=
  .node classIndex6 0x176657374696e67696e666f 711 classIndex7

/-- Positions of the keys of `classes`, a subtree. -/
def classIndex9 : KeyTree :=
  .node (.node (.node (.node (.node (.node .leaf 0x1726567697374726174696f6e 540 .leaf) 0x173657373696f6e696e646578 584 (.node .leaf 0x173657373696f6e6b65797331 587 .leaf)) 0x173657373696f6e6b65797332 590 (.node (.node .leaf 0x173657373696f6e6b65797333 591 .leaf) 0x173657373696f6e6b65797334 592 .leaf)) 0x173657373696f6e6b65797335 593 (.node (.node (.node .leaf 0x173657373696f6e6b65797336 594 .leaf) 0x173657373696f6e6b65797337 596 .leaf) 0x173657373696f6e6b65797338 598 (.node (.node .leaf 0x173657373696f6e6b65797339 600 .leaf) 0x173746f7261676570726f6f66 648 .leaf))) 0x173797374656d6f726967696e 656 (.node (.node (.node (.node .leaf 0x176657273696f6e656478636d 710 .leaf) 0x1766f74696e67646972656374 719 .leaf) 0x178636d617373657469647633 747 (.node (.node .leaf 0x16163636f756e74737461747573 17 .leaf) 0x1616374697665657261696e666f 22 .leaf)) 0x16173736574617070726f76616c 34 (.node (.node (.node .leaf 0x16173736574696e7374616e6365 40 .leaf) 0x161737365746d65746164617461 45 .leaf) 0x1617574686f726974796c697374 55 (.node (.node .leaf 0x162616c616e6365737461747573 73 .leaf) 0x162616c616e636575706c6f6164 74 .leaf)))) 0x1626c6f636b6e756d6265726f66 89 (.node (.node (.node (.node (.node .leaf 0x1626f783c70726f706f73616c3e 111 .leaf) 0x162726964676564686561646572 115 .leaf) 0x163616e64696461746568617368 124 (.node (.node .leaf 0x1636c6173736d65746164617461 132 .leaf) 0x164656c61796b696e6462657374 169 .leaf)) 0x16469737061746368636c617373 180 (.node (.node (.node .leaf 0x164697370617463686572726f72 181 .leaf) 0x164697370757465726573756c74 188 .leaf) 0x1656c656374696f6e7068617365 202 (.node (.node .leaf 0x1656c656374696f6e73636f7265 204 .leaf) 0x16574686163636573736c697374 214 .leaf))) 0x165746872696368686561646572 231 (.node (.node (.node (.node .leaf 0x165746873796e63737461747573 237 .leaf) 0x165786368616e67656173736574 249 .leaf) 0x166756e676962696c6974797630 271 (.node (.node .leaf 0x166756e676962696c6974797631 272 .leaf) 0x166756e676962696c6974797632 273 .leaf)) 0x166756e676962696c6974797633 274 (.node (.node (.node .leaf 0x16772616e647061636f6d6d6974 282 .leaf) 0x1686f7374666e77656967687473 297 .leaf) 0x168726d706368616e6e656c6964 299 (.node (.node .leaf 0x1696e626f756e64737461747573 311 .leaf) 0x1696e737472756374696f6e7632 327 .leaf))))

/-- Positions of the keys of `classes`, a subtree. -/
def classIndex10 : KeyTree :=
  .node (.node (.node (.node (.node (.node .leaf 0x16b65796f776e657270726f6f66 345 .leaf) 0x16c65617365706572696f646f66 355 .leaf) 0x16c6f7474657279636f6e666967 362 (.node (.node .leaf 0x16d756c74696173736574737631 394 .leaf) 0x16d756c74696173736574737632 395 .leaf)) 0x16d756c74696173736574737633 396 (.node (.node (.node .leaf 0x16d756c74696c6f636174696f6e 398 .leaf) 0x16e657874617574686f72697479 410 .leaf) 0x16f70656e74697066696e646572 427 (.node (.node .leaf 0x16f7065726174696e676d6f6465 429 .leaf) 0x170616765696e64657864617461 446 .leaf))) 0x170616c6c6574736f726967696e 453 (.node (.node (.node (.node .leaf 0x170616c6c657476657273696f6e 452 .leaf) 0x1706172616c6966656379636c65 457 .leaf) 0x170656e64696e676368616e6765 470 (.node (.node .leaf 0x170656e64696e67726573756d65 472 .leaf) 0x17065726d697373696f6e737631 482 .leaf)) 0x170687261676d656e73636f7265 487 (.node (.node (.node .leaf 0x170726f706f73616c696e646578 504 .leaf) 0x170726f706f73616c7374616765 505 .leaf) 0x170726f706f73616c7469746c65 506 (.node (.node .leaf 0x17265616479736f6c7574696f6e 524 .leaf) 0x1726567697374726172696e666f 539 .leaf)))) 0x17363686564756c65746f323132 577 (.node (.node (.node (.node (.node .leaf 0x17363686564756c65746f323538 578 .leaf) 0x173657373696f6e6b6579733130 588 .leaf) 0x173657373696f6e6b6579733662 595 (.node (.node .leaf 0x173657373696f6e6b6579733762 597 .leaf) 0x173657373696f6e6b6579733862 599 .leaf)) 0x173657373696f6e6b6579733962 601 (.node (.node (.node .leaf 0x1736c617368696e677370616e73 626 .leaf) 0x173746174656d656e746b696e64 639 .leaf) 0x173746f72616765686173686572 645 (.node (.node .leaf 0x173746f726167656d6f64696679 647 .leaf) 0x174617373657462616c616e6365 657 .leaf))) 0x174656c65706f72746173736574 661 (.node (.node (.node (.node .leaf 0x17472616e73616374696f6e7630 672 .leaf) 0x17472616e73616374696f6e7631 673 .leaf) 0x17472616e73616374696f6e7632 674 (.node (.node .leaf 0x17570776172646d657373616765 686 .leaf) 0x176616c696461746f7269646f66 695 .leaf)) 0x1766f74657468726573686f6c64 714 (.node (.node (.node .leaf 0x17765696768746c696d69747632 726 .leaf) 0x17765696768746c696d69747633 727 .leaf) 0x177697468647261776173736574 743 (.node (.node .leaf 0x178636d6f726967696e6b696e64 757 .leaf) 0x16163746976657265636f76657279 26 .leaf))))

/-- Positions of the keys of `classes`, a subtree. -/
def classIndex11 : KeyTree :=
  .node classIndex9 0x1696e737472756374696f6e7633 328 classIndex10

/-- Positions of the keys of `classes`, a subtree. -/
def classIndex12 : KeyTree :=
  .node (.node (.node (.node (.node (.node .leaf 0x1617574686f72697479696e646578 54 .leaf) 0x1626c6f636b6e756d626572666f72 88 (.node .leaf 0x1626c6f636b74726163657370616e 93 .leaf)) 0x1636f6e73756d6564776569676874 148 (.node (.node .leaf 0x1636f726561737369676e6d656e74 161 .leaf) 0x16465706f73697462616c616e6365 173 .leaf)) 0x164657374726f797769746e657373 176 (.node (.node (.node .leaf 0x16469737061746368726573756c74 186 .leaf) 0x1646f6e6f74636f6e737472756374 192 .leaf) 0x165636473617369676e6174757265 198 (.node (.node .leaf 0x1656c656374696f6e726573756c74 203 .leaf) 0x1656c656374696f6e737461747573 206 .leaf))) 0x165746863616c6c72657175657374 220 (.node (.node (.node (.node .leaf 0x165746866696c746572746f706963 224 .leaf) 0x16574687472616e73616374696f6e 238 .leaf) 0x16772616e647061707265766f7465 288 (.node (.node .leaf 0x16964656e746974796669656c6473 302 .leaf) 0x1696e626f756e6472656c61796572 310 .leaf)) 0x1696e636c75646564626c6f636b73 312 (.node (.node (.node .leaf 0x16b657976616c75656f7074696f6e 348 .leaf) 0x16d756c74697369676e6174757265 403 .leaf) 0x16e6f6d696e61746f72696e646578 414 (.node (.node .leaf 0x16f6666656e636564657461696c73 418 .leaf) 0x16f706171756574696d65736c6f74 424 .leaf)))) 0x16f7574626f756e64737461747573 441 (.node (.node (.node (.node (.node .leaf 0x1706172617363686564756c696e67 459 .leaf) 0x1707265696d616765737461747573 495 .leaf) 0x17265636f76657279636f6e666967 526 (.node (.node .leaf 0x17265666572656e64756d696e666f 530 .leaf) 0x1726567697374726172696e646578 538 .leaf)) 0x172656c6179636861696e68617368 544 (.node (.node (.node .leaf 0x172656e7470726f6a656374696f6e 553 .leaf) 0x172756e74696d6576657273696f6e 572 .leaf) 0x17363686564756c65706572696f64 575 (.node (.node .leaf 0x1736572766963657175616c697479 583 .leaf) 0x173657373696f6e6b657973313062 589 .leaf))) 0x17369676e696e67636f6e74657874 625 (.node (.node (.node (.node .leaf 0x173696c6f6f6b7570747970656964 605 .leaf) 0x17369747970656465666172726179 609 .leaf) 0x173697479706564656672616e6765 614 (.node (.node .leaf 0x17369747970656465667475706c65 616 .leaf) 0x1756e6170706c696564736c617368 679 .leaf)) 0x176616c69646174696f6e636f6465 688 (.node (.node (.node .leaf 0x176616c69646174696f6e64617461 690 .leaf) 0x176616c696461746f72636f756e74 693 .leaf) 0x176616c696461746f72696e646578 696 (.node (.node .leaf 0x176616c696461746f727072656673 698 .leaf) 0x176616c696461746f727365746964 701 .leaf))))

/-- Positions of the keys of `classes`, a subtree. -/
def classIndex13 : KeyTree :=
  .node (.node (.node (.node (.node (.node .leaf 0x1776569676874706572636c617373 729 .leaf) 0x177696c646d756c74696173736574 735 (.node .leaf 0x16163636f756e7476616c6964697479 18 .leaf)) 0x161726974686d657469636572726f72 33 (.node (.node .leaf 0x16173736574696e7374616e63657630 41 .leaf) 0x16173736574696e7374616e63657631 42 .leaf)) 0x16173736574696e7374616e63657632 43 (.node (.node (.node .leaf 0x16173736574696e7374616e63657633 44 .leaf) 0x1617574686f72697479776569676874 60 .leaf) 0x162616265626c6f636b776569676874 64 (.node (.node .leaf 0x16261636b656463616e646964617465 68 .leaf) 0x16265656679636f6d6d69746d656e74 76 .leaf))) 0x1626c6f636b74726163656576656e74 91 (.node (.node (.node (.node .leaf 0x16272696467656d6573736167656964 112 .leaf) 0x1636f6e747261637470726f6a656374 156 .leaf) 0x16469737061746368696e666f323538 185 (.node (.node .leaf 0x1646973707574656c6f636174696f6e 187 .leaf) 0x1646f776e776172646d657373616765 195 .leaf)) 0x16567726573737175657565726f6f74 200 (.node (.node (.node .leaf 0x1656c656374696f6e636f6d70757465 201 .leaf) 0x165706f6368617574686f7273686970 208 .leaf) 0x1657261726577617264706f696e7473 213 (.node (.node .leaf 0x1657468657265756d3a3a626c6f636b 766 .leaf) 0x165746873746f7261676570726f6f66 232 .leaf)))) 0x16578656372657475726e76616c7565 250 (.node (.node (.node (.node (.node .leaf 0x1657874656e64656462616c616e6365 257 .leaf) 0x1696e626f756e646c616e6564617461 309 .leaf) 0x1696e7374616e636564657461696c73 322 (.node (.node .leaf 0x16d6179626572616e646f6d6e657373 364 .leaf) 0x16d656d6265727368697070726f6f66 367 .leaf)) 0x16d6573736167657370726f6f666f66 375 (.node (.node (.node .leaf 0x16d6574616461746176657273696f6e 378 .leaf) 0x16d756c74696c6f636174696f6e7630 399 .leaf) 0x16d756c74696c6f636174696f6e7631 400 (.node (.node .leaf 0x16d756c74696c6f636174696f6e7632 401 .leaf) 0x16d756c74696c6f636174696f6e7633 402 .leaf))) 0x16f70617175656d756c746961646472 421 (.node (.node (.node (.node .leaf 0x16f7574626f756e647061796c6f6164 440 .leaf) 0x16f766572776569676874696e646578 443 .leaf) 0x17061726167656e6573697361726773 454 (.node (.node .leaf 0x170617261746872656164636c61696d 466 .leaf) 0x170617261746872656164656e747279 468 .leaf)) 0x170726f7879646566696e6974696f6e 508 (.node (.node (.node .leaf 0x17175657279726573706f6e73657633 514 .leaf) 0x17175657565636f6e66696764617461 516 .leaf) 0x17265666572656e64756d696e646578 529 (.node (.node .leaf 0x1726573706f6e736576326572726f72 563 .leaf) 0x172756e74696d656462776569676874 571 .leaf))))

/-- Positions of the keys of `classes`, a subtree. -/
def classIndex14 : KeyTree :=
  .node classIndex12 0x1766f756368696e67737461747573 721 classIndex13

/-- Positions of the keys of `classes`, a subtree. -/
def classIndex15 : KeyTree :=
  .node (.node (.node (.node (.node (.node .leaf 0x1736f6c7574696f6e737570706f7274 631 .leaf) 0x17769746864726177726561736f6e73 744 (.node .leaf 0x1616273747261637466756e6769626c65 9 .leaf)) 0x16163636f756e74766f746573706c6974 20 (.node (.node .leaf 0x161637469766567696c7473746f74616c 24 .leaf) 0x16173736574617070726f76616c6b6579 35 .leaf)) 0x162726964676564626c6f636b68617368 113 (.node (.node (.node .leaf 0x163616e64696461746572656365697074 126 .leaf) 0x1636f6c6c6563746976656f726967696e 136 .leaf) 0x1636f6e637265746566756e6769626c65 144 (.node (.node .leaf 0x16465706f73697462616c616e63656f66 174 .leaf) 0x16469737075746573746174656d656e74 190 .leaf))) 0x1646f75626c65766f74657265706f7274 194 (.node (.node (.node (.node .leaf 0x1656432353531397369676e6174757265 199 .leaf) 0x1657468657265756d3a3a686561646572 767 .leaf) 0x165746866696c74657261646472657373 222 (.node (.node .leaf 0x165746866696c7465726368616e676573 223 .leaf) 0x165787472696e73696373776569676874 262 .leaf)) 0x16772616e647061707265636f6d6d6974 287 (.node (.node (.node .leaf 0x1696e69746961746574656c65706f7274 321 .leaf) 0x1696e7374616e63656d65746164617461 324 .leaf) 0x16c617374636f6e747269627574696f6e 352 (.node (.node .leaf 0x16d617962656572726f72636f64657633 363 .leaf) 0x16d6f72656174746573746174696f6e73 382 .leaf)))) 0x16d756c7469617373657466696c746572 385 (.node (.node (.node (.node (.node .leaf 0x16f6666636861696e6163637572616379 416 .leaf) 0x16f7574626f756e646c616e6564617461 438 .leaf) 0x17061726170617374636f64656d657461 458 (.node (.node .leaf 0x17065726469737061746368636c617373 473 .leaf) 0x17065726d697373696f6e6c6174657374 480 .leaf)) 0x1706f727461626c657265676973747279 489 (.node (.node (.node .leaf 0x17072656661627761736d6d6f64756c65 493 .leaf) 0x170726f706f73616c63617465676f7279 502 .leaf) 0x170726f706f73616c636f6e74656e7473 503 (.node (.node .leaf 0x171756575656470617261746872656164 517 .leaf) 0x172617762616265707265646967657374 519 .leaf))) 0x17265666572656e64756d737461747573 536 (.node (.node (.node (.node .leaf 0x172656c6179626c6f636b6e756d626572 542 .leaf) 0x172656c656173657362616c616e636573 550 .leaf) 0x17265706c6163656d656e7474696d6573 554 (.node (.node .leaf 0x17363686564756c657072696f72697479 576 .leaf) 0x17369676e65647375626d697373696f6e 623 .leaf)) 0x1736974797065646566636f6d70616374 611 (.node (.node (.node .leaf 0x173697479706564656676617269616e74 617 .leaf) 0x1736f6c7574696f6e737570706f727473 632 .leaf) 0x1737232353531397369676e6174757265 636 (.node (.node .leaf 0x173746f726167656368616e6765736574 641 .leaf) 0x1747265617375727970726f706f73616c 676 .leaf))))

/-- Positions of the keys of `classes`, a subtree. -/
def classIndex16 : KeyTree :=
  .node (.node (.node (.node (.node (.node .leaf 0x1766f74696e67646972656374766f7465 720 .leaf) 0x17765696768746d756c7469706c696572 728 .leaf) 0x177696c646d756c746961737365747631 736 (.node (.node .leaf 0x177696c646d756c746961737365747632 737 .leaf) 0x177696c646d756c746961737365747633 738 .leaf)) 0x177696e6e657273646174617475706c65 740 (.node (.node (.node .leaf 0x177696e6e696e6764617461656e747279 742 .leaf) 0x178636d7472616974736572726f727633 759 .leaf) 0x1616c697665636f6e7472616374696e666f 27 (.node (.node .leaf 0x1617474657374656463616e646964617465 49 .leaf) 0x1626c6f636b6174746573746174696f6e73 86 .leaf))) 0x1626c6f636b7472616e73616374696f6e73 94 (.node (.node (.node (.node .leaf 0x16368616e676573747269657369676e616c 129 .leaf) 0x1636f6c6c61746f727369676e6174757265 135 .leaf) 0x1636f6e73656e737573656e67696e656964 147 (.node (.node .leaf 0x164656665727265646f6666656e63656f66 166 .leaf) 0x164656c6976657265646d65737361676573 171 .leaf)) 0x1646f75626c65656e636f64656463616c6c 193 (.node (.node (.node .leaf 0x16574686163636573736c6973746974656d 215 .leaf) 0x1657468657265756d3a3a72656365697074 768 .leaf) 0x1657468657265756d6163636f756e746964 245 (.node (.node .leaf 0x1657468657265756d7369676e6174757265 247 .leaf) 0x165787472696e7369636d65746164617461 258 .leaf)))) 0x1686f7374636f6e66696775726174696f6e 296 (.node (.node (.node (.node (.node .leaf 0x1696e636f6d696e6770617261636861696e 314 .leaf) 0x16c65676163797472616e73616374696f6e 356 .leaf) 0x16d6573736167657175657565636861696e 373 (.node (.node .leaf 0x170617261636861696e70726f706f73616c 463 .leaf) 0x170726f7879616e6e6f756e63656d656e74 507 .leaf)) 0x172657761726464657374696e6174696f6e 566 (.node (.node (.node .leaf 0x172756e74696d6576657273696f6e617069 573 .leaf) 0x173697479706564656673657175656e6365 615 .leaf) 0x1756e726577617264656472656c61796572 683 (.node (.node .leaf 0x176657273696f6e6564726573706f6e7365 709 .leaf) 0x177696c6466756e676962696c6974797630 731 .leaf))) 0x177696c6466756e676962696c6974797631 732 (.node (.node (.node (.node .leaf 0x177696c6466756e676962696c6974797632 733 .leaf) 0x177696c6466756e676962696c6974797633 734 .leaf) 0x178636d3a3a76657273696f6e656478636d 779 (.node (.node .leaf 0x178636d706d657373616765666f726d6174 765 .leaf) 0x1617574686f726974797365746368616e6765 57 .leaf)) 0x1617574686f726974797369676e6174757265 59 (.node (.node (.node .leaf 0x1626f756e7479737461747573616374697665 104 .leaf) 0x162726964676564626c6f636b6e756d626572 114 .leaf) 0x1636f6d7061637461737369676e6d656e7473 138 (.node (.node .leaf 0x1636f6e747261637465786563726573756c74 150 .leaf) 0x1636f6e747261637473746f726167656b6579 159 .leaf))))

/-- Positions of the keys of `classes`, a subtree. -/
def classIndex17 : KeyTree :=
  .node classIndex15 0x1766f74696e6764656c65676174696e67 718 classIndex16

/-- Positions of the keys of `classes`, a subtree. -/
def classIndex18 : KeyTree :=
  .node (.node (.node (.node (.node (.node .leaf 0x1656970313535397472616e73616374696f6e 196 .leaf) 0x1656970323933307472616e73616374696f6e 197 (.node .leaf 0x165787472696e7369637369676e6174757265 261 .leaf)) 0x166756c6c6964656e74696669636174696f6e 268 (.node (.node .leaf 0x1696e626f756e6468726d706d657373616765 307 .leaf) 0x1696e646976696475616c6578706f73757265 318 .leaf)) 0x1696e697469616c697a6174696f6e64617461 319 (.node (.node (.node .leaf 0x1696e7374616e746961746572657175657374 325 .leaf) 0x1696e737472756374696f6e77656967687473 329 .leaf) 0x16d756c7469617373657466696c7465727631 386 (.node (.node .leaf 0x16d756c7469617373657466696c7465727632 387 .leaf) 0x16d756c7469617373657466696c7465727633 388 .leaf))) 0x16f70617175656e6574776f726b7374617465 422 (.node (.node (.node (.node .leaf 0x16f7574626f756e646d657373616765666565 439 .leaf) 0x17061726176616c696461746f72696e646578 460 .leaf) 0x17065726d697373696f6e76657273696f6e73 481 (.node (.node .leaf 0x17363686564756c653a3a7072696f72697479 771 .leaf) 0x17369676e65647375626d697373696f6e6f66 624 .leaf)) 0x1736974797065646566636f6d706f73697465 612 (.node (.node (.node .leaf 0x17369747970656465667072696d6974697665 613 .leaf) 0x173797374656d696e686572656e7464617461 655 .leaf) 0x17472616365626c6f636b726573706f6e7365 666 (.node (.node .leaf 0x1757067726164657265737472696374696f6e 685 .leaf) 0x176616c69646174696f6e636f646568617368 689 .leaf)))) 0x176616c69646174696f6e6461746174797065 691 (.node (.node (.node (.node (.node .leaf 0x176616c696461746f727369676e6174757265 702 .leaf) 0x13c7420617320636f6e6669673e3a3a63616c6c 5 .leaf) 0x1616272696467656468726d706368616e6e656c 8 (.node (.node .leaf 0x161627374726163746e6f6e66756e6769626c65 10 .leaf) 0x16163636f756e74766f74657374616e64617264 21 .leaf)) 0x1617373657464657374726f797769746e657373 37 (.node (.node (.node .leaf 0x1617574686f726974797365746368616e676573 58 .leaf) 0x162616265617574686f72697479776569676874 63 .leaf) 0x1626c6f636b74726163656576656e7464617461 92 (.node (.node .leaf 0x163616e64696461746564657363726970746f72 123 .leaf) 0x1636f6d7061637473636f7265636f6d70616374 143 .leaf))) 0x1636f6e63726574656e6f6e66756e6769626c65 145 (.node (.node (.node (.node .leaf 0x1636f6e747261637463616c6c72657175657374 149 .leaf) 0x16465706f736974726573657276656173736574 175 .leaf) 0x164697370617463686572726f726d6f64756c65 182 (.node (.node .leaf 0x16469737075746573746174656d656e74736574 191 .leaf) 0x165746866696c746572746f706963656e747279 225 .leaf)) 0x165746866696c746572746f706963696e6e6572 226 (.node (.node (.node .leaf 0x167656e657269636d756c746961646472657373 277 .leaf) 0x16772616e64706165717569766f636174696f6e 283 .leaf) 0x16964656e74696669636174696f6e7475706c65 301 (.node (.node .leaf 0x1696e626f756e6468726d706d65737361676573 308 .leaf) 0x16c6f63616c76616c69646174696f6e64617461 359 .leaf))))

/-- Positions of the keys of `classes`, a subtree. -/
def classIndex19 : KeyTree :=
  .node (.node (.node (.node (.node (.node .leaf 0x17065726469737061746368636c617373753332 474 .leaf) 0x17175657279726573706f6e7365696e666f7633 513 (.node .leaf 0x17265706f72746564726f756e64737461746573 556 .leaf)) 0x17265736572766561737365746465706f736974 558 (.node (.node .leaf 0x173657373696f6e6b657973706f6c6b61646f74 602 .leaf) 0x1736c617368696e673a3a7370616e696e646578 775 .leaf)) 0x173746f7261676566756e6374696f6e74797065 643 (.node (.node (.node .leaf 0x173746f72656470656e64696e676368616e6765 649 .leaf) 0x17375626d697373696f6e696e64696365736f66 653 .leaf) 0x17472616e73616374696f6e7072696f72697479 669 (.node (.node .leaf 0x1756e6170706c696564736c6173686f74686572 681 .leaf) 0x176616c69646974796174746573746174696f6e 703 .leaf))) 0x176657273696f6e65646d756c74696173736574 706 (.node (.node (.node (.node .leaf 0x1286163636f756e7469642c2062616c616e636529 1 .leaf) 0x1617574686f72697479646973636f766572796964 52 .leaf) 0x1617661696c6162696c6974796269746669656c64 61 (.node (.node .leaf 0x162616c616e63656c6f636b3c62616c616e63653e 71 .leaf) 0x163616e646964617465636f6d6d69746d656e7473 122 .leaf)) 0x1657468657265756d6c6f6f6b7570736f75726365 246 (.node (.node (.node .leaf 0x16574687472616e73616374696f6e616374696f6e 239 .leaf) 0x16574687472616e73616374696f6e737461747573 243 .leaf) 0x165787472696e7369636d65746164617461763134 259 (.node (.node .leaf 0x165787472696e7369636d65746164617461763135 260 .leaf) 0x1676c6f62616c76616c69646174696f6e64617461 280 .leaf)))) 0x16772616e6470616a757374696669636174696f6e 286 (.node (.node (.node (.node (.node .leaf 0x16d657373616765696e67657374696f6e74797065 370 .leaf) 0x16e657874636f6e66696764657363726970746f72 411 .leaf) 0x170617261746872656164636c61696d7175657565 467 (.node (.node .leaf 0x173697479706564656662697473657175656e6365 610 .leaf) 0x17461737365746465706f73697462616c616e6365 658 .leaf)) 0x17472616e73616374696f6e7369676e6174757265 671 (.node (.node (.node .leaf 0x176657273696f6e65646d756c7469617373657473 707 .leaf) 0x16261626565717569766f636174696f6e70726f6f66 66 .leaf) 0x162656566796e657874617574686f72697479736574 79 (.node (.node .leaf 0x162656566797369676e6564636f6d6d69746d656e74 81 .leaf) 0x1627566666572656473657373696f6e6368616e6765 116 .leaf))) 0x1636f6e747261637470726f6a656374736f75726365 158 (.node (.node (.node (.node .leaf 0x1637573746f6d76616c75656d657461646174613135 165 .leaf) 0x1656e636f64656466696e616c69747970726f6f6673 207 .leaf) 0x1657468657265756d3a3a7472616e73616374696f6e 769 (.node (.node .leaf 0x16574687472616e73616374696f6e72657175657374 241 .leaf) 0x1666f726b7472656570656e64696e676368616e6765 266 .leaf)) 0x1696e746572696f726d756c74696c6f636174696f6e 330 (.node (.node (.node .leaf 0x16e6f6d696e61746f72696e646578636f6d70616374 415 .leaf) 0x170616c6c657463616c6c6d65746164617461763134 447 .leaf) 0x170617261636861696e696e686572656e7464617461 462 (.node (.node .leaf 0x1726567697374726174696f6e6a756467656d656e74 541 .leaf) 0x172656c6179636861696e626c6f636b6e756d626572 543 .leaf))))

/-- Positions of the keys of `classes`, a subtree. -/
def classIndex20 : KeyTree :=
  .node classIndex18 0x16f7574626f756e6468726d706d657373616765 437 classIndex19

/-- Positions of the keys of `classes`, a subtree. -/
def classIndex21 : KeyTree :=
  .node (.node (.node (.node (.node (.node .leaf 0x17472616e73616374696f6e7265636f766572796964 670 .leaf) 0x176616c696461746f72696e646578636f6d70616374 697 (.node .leaf 0x1766563696e626f756e6468726d706d657373616765 704 .leaf)) 0x176657273696f6e6d6967726174696f6e7374616765 705 (.node (.node .leaf 0x16261626565706f6368636f6e66696775726174696f6e 65 .leaf) 0x1636f6d7061637461737369676e6d656e7473766f7465 140 .leaf)) 0x16772616e6470617369676e6564707265636f6d6d6974 289 (.node (.node (.node .leaf 0x168726d706f70656e6368616e6e656c72657175657374 300 .leaf) 0x16964656e74697479696e666f6164646974696f6e616c 304 .leaf) 0x1696e626f756e64646f776e776172646d657373616765 306 (.node (.node .leaf 0x1696e636f6d696e6770617261636861696e6669786564 316 .leaf) 0x1696e7374616e746961746572657475726e76616c7565 326 .leaf))) 0x16c61737472756e74696d6575706772616465696e666f 353 (.node (.node (.node (.node .leaf 0x16d6573736167696e677374617465736e617073686f74 376 .leaf) 0x16e657874636f6e66696764657363726970746f727631 412 .leaf) 0x170616c6c65746572726f726d65746164617461763134 448 (.node (.node .leaf 0x170616c6c65746576656e746d65746164617461763134 449 .leaf) 0x170617261636861696e73696e686572656e7464617461 464 .leaf)) 0x172617762616265707265646967657374636f6d706174 520 (.node (.node (.node .leaf 0x17265666572656e64756d696e666f66696e6973686564 535 .leaf) 0x17363686e6f72726b656c3a3a72616e646f6d6e657373 772 .leaf) 0x1736f6c7574696f6e6f72736e617073686f7473697a65 630 (.node (.node .leaf 0x173746f7261676566756e6374696f6e74797065763134 644 .leaf) 0x176657273696f6e65646d756c74696c6f636174696f6e 708 .leaf)))) 0x1636f6e747261637465786563726573756c74746f323535 153 (.node (.node (.node (.node (.node .leaf 0x1636f6e747261637470726f6a656374636f6e7472616374 157 .leaf) 0x16574687472616e73616374696f6e636f6e646974696f6e 240 .leaf) 0x16574687472616e73616374696f6e7369676e6174757265 242 (.node (.node .leaf 0x167656e65726963706f727461626c657265676973747279 278 .leaf) 0x1696e636f6d696e6770617261636861696e6465706c6f79 315 .leaf)) 0x1696e697469617465726573657276657769746864726177 320 (.node (.node (.node .leaf 0x1696e746572696f726d756c74696c6f636174696f6e7633 331 .leaf) 0x16d6573736167657364656c697665727970726f6f666f66 374 .leaf) 0x16f6666636861696e6163637572616379636f6d70616374 417 (.node (.node .leaf 0x170617261636861696e64697370617463686f726967696e 461 .leaf) 0x170657273697374656476616c69646174696f6e64617461 484 .leaf))) 0x1707265696d616765737461747573617661696c61626c65 496 (.node (.node (.node (.node .leaf 0x17265676973746572656470617261636861696e696e666f 537 .leaf) 0x1736c617368696e673a3a736c617368696e677370616e73 774 .leaf) 0x17472616e7369656e7476616c69646174696f6e64617461 675 (.node (.node .leaf 0x1756e726577617264656472656c61796572737374617465 684 .leaf) 0x1616272696467656463616e64696461746572656365697074 6 .leaf)) 0x16163636f756e74696e666f7769746870726f766964657273 15 (.node (.node (.node .leaf 0x1626f783c3c7420617320636f6e6669673e3a3a63616c6c3e 108 .leaf) 0x16368616e67657374726965636f6e66696775726174696f6e 128 .leaf) 0x1636f6d7061637461737369676e6d656e74736c6174657374 139 (.node (.node .leaf 0x1636f6d7061637461737369676e6d656e7473776974683234 141 .leaf) 0x16578706c696369746469737075746573746174656d656e74 256 .leaf))))

/-- Positions of the keys of `classes`, a subtree. -/
def classIndex22 : KeyTree :=
  .node (.node (.node (.node (.node (.node .leaf 0x16772616e64706165717569766f636174696f6e70726f6f66 284 .leaf) 0x16772616e64706165717569766f636174696f6e76616c7565 285 .leaf) 0x16d756c74696469737075746573746174656d656e74736574 397 (.node (.node .leaf 0x17072656661627761736d6d6f64756c657265736572766564 494 .leaf) 0x17363686e6f72726b656c3a3a7261777672666f7574707574 773 .leaf)) 0x176616c69646174696f6e66756e6374696f6e706172616d73 692 (.node (.node (.node .leaf 0x16162726964676564686f7374636f6e66696775726174696f6e 7 .leaf) 0x1626f756e747973746174757370656e64696e677061796f7574 106 .leaf) 0x1636f6d6d697474656463616e64696461746572656365697074 137 (.node (.node .leaf 0x1636f6e747261637465786563726573756c7473756363657373 151 .leaf) 0x1636f6e7472616374696e7374616e7469617465726573756c74 155 .leaf))) 0x165717569766f636174696f6e70726f6f663c6865616465723e 211 (.node (.node (.node (.node .leaf 0x1666f726b7472656570656e64696e676368616e67656e6f6465 267 .leaf) 0x16a757374696669636174696f6e6e6f74696669636174696f6e 343 .leaf) 0x173657373696f6e696e666f76616c696461746f7267726f7570 586 (.node (.node .leaf 0x176616c696461746f72707265667377697468626c6f636b6564 699 .leaf) 0x176616c69646469737075746573746174656d656e746b696e64 687 .leaf)) 0x1776569676874733a3a65787472696e73696373776569676874 778 (.node (.node (.node .leaf 0x1617661696c6162696c6974796269746669656c647265636f7264 62 .leaf) 0x17369676e6564617661696c6162696c6974796269746669656c64 620 .leaf) 0x17369676e6564657874656e73696f6e6d65746164617461763134 622 (.node (.node .leaf 0x1626f756e747973746174757363757261746f7270726f706f736564 105 .leaf) 0x1696e76616c69646469737075746573746174656d656e746b696e64 332 .leaf)))) 0x17369676e6564617661696c6162696c6974796269746669656c6473 621 (.node (.node (.node (.node (.node .leaf 0x163616e64696461746570656e64696e67617661696c6162696c697479 125 .leaf) 0x176616c696461746f72707265667377697468636f6d6d697373696f6e 700 .leaf) 0x16163636f756e74696e666f77697468747269706c65726566636f756e74 16 (.node (.node .leaf 0x17363686564756c653a3a706572696f643c626c6f636b6e756d6265723e 770 .leaf) 0x1626f783c3c742061732074726169743c693e3e3a3a70726f706f73616c3e 109 .leaf)) 0x1636f6e747261637465786563726573756c7473756363657373746f323535 152 (.node (.node (.node .leaf 0x1626f783c3c7420617320636f6e6669673c693e3e3a3a70726f706f73616c3e 107 .leaf) 0x1736c617368696e673a3a7370616e7265636f72643c62616c616e63656f663e 776 .leaf) 0x162616c616e63656c6f636b3c62616c616e63652c20626c6f636b6e756d6265723e 70 (.node (.node .leaf 0x16d6573736167696e677374617465736e617073686f74656772657373656e747279 377 .leaf) 0x17265666572656e64756d696e666f3c626c6f636b6e756d6265722c20686173683e 533 .leaf))) 0x17374616b696e676c65646765723c6163636f756e7469642c2062616c616e63656f663e 637 (.node (.node (.node (.node .leaf 0x165717569766f636174696f6e70726f6f663c686173682c20626c6f636b6e756d6265723e 210 .leaf) 0x1756e6170706c696564736c6173683c6163636f756e7469642c2062616c616e63656f663e 680 .leaf) 0x17265666572656e64756d696e666f3c626c6f636b6e756d6265722c2070726f706f73616c3e 534 (.node (.node .leaf 0x17265666572656e64756d696e666f3c626c6f636b6e756d6265722c20686173682c2062616c616e63653e 531 .leaf) 0x13c617574686f7269747969642061732072756e74696d656170707075626c69633e3a3a7369676e6174757265 4 .leaf)) 0x17265666572656e64756d696e666f3c626c6f636b6e756d6265722c20686173682c2062616c616e63656f663e 532 (.node (.node (.node .leaf 0x16f6666656e636564657461696c733c6163636f756e7469642c206964656e74696669636174696f6e7475706c653e 419 .leaf) 0x173757065723a3a696e697469616c697a6174696f6e646174613c627269646765646865616465723c742c20693e3e 777 .leaf) 0x16f70656e7469703c6163636f756e7469642c2062616c616e63656f662c20626c6f636b6e756d6265722c20686173683e 426 (.node (.node .leaf 0x12862616c616e63656f663c742c20693e2c206269646b696e643c6163636f756e7469642c2062616c616e63656f663c742c20693e3e29 2 .leaf) 0x128626f756e6465647665633c70726f7879646566696e6974696f6e3c6163636f756e7469642c70726f7879747970652c626c6f636b6e756d6265723e2c6d617870726f786965733e2c62616c616e63656f6629 3 .leaf))))

/-- Positions of the keys of `classes`, a subtree. -/
def classIndex23 : KeyTree :=
  .node classIndex21 0x1676c6f62616c76616c69646174696f6e7363686564756c65 281 classIndex22

/-- Positions of the keys of `classes`. -/
def classIndex : KeyTree :=
  (.node (.node (.node classIndex2 0x17265706f72746572 557 classIndex5) 0x178636d61737365746964 746 (.node classIndex8 0x17175657279686f6c64696e67 511 classIndex11)) 0x161737369676e6d656e746b696e64 48 (.node (.node classIndex14 0x1736974797065706172616d65746572 618 classIndex17) 0x164697370617463686665657061796d656e74 183 (.node classIndex20 0x1746f6d6273746f6e65636f6e7472616374696e666f 665 classIndex23)))

/-- Positions of the keys of `baseReg`, a subtree. -/
def baseIndex0 : KeyTree :=
  .node (.node (.node (.node (.node (.node .leaf 0x16938 74 .leaf) 0x17538 1 .leaf) 0x1626f78 60 (.node (.node .leaf 0x1657261 30 .leaf) 0x1693136 75 .leaf)) 0x1693332 76 (.node (.node (.node .leaf 0x1693634 77 .leaf) 0x1736574 20 .leaf) 0x1737472 71 (.node (.node .leaf 0x1753136 2 .leaf) 0x1753332 3 .leaf))) 0x1753634 4 (.node (.node (.node (.node .leaf 0x1766563 17 .leaf) 0x1626f6f6c 23 .leaf) 0x163616c6c 48 (.node (.node .leaf 0x164617461 51 .leaf) 0x1656e756d 15 .leaf)) 0x168313238 80 (.node (.node (.node .leaf 0x168313630 9 .leaf) 0x168323536 10 .leaf) 0x168353132 11 (.node .leaf 0x168617368 72 .leaf)))) 0x169313238 78 (.node (.node (.node (.node (.node .leaf 0x169323536 79 .leaf) 0x16e756c6c 0 .leaf) 0x17365616c 39 (.node (.node .leaf 0x175313238 8 .leaf) 0x175323536 5 .leaf)) 0x16279746573 16 (.node (.node (.node .leaf 0x1656d707479 68 .leaf) 0x16f74686572 34 .leaf) 0x172616e6765 64 (.node (.node .leaf 0x1626974766563 56 .leaf) 0x16d6f6d656e74 25 .leaf))) 0x16f7074696f6e 13 (.node (.node (.node (.node .leaf 0x1726573756c74 61 .leaf) 0x17365616c7630 37 .leaf) 0x1737472696e67 53 (.node (.node .leaf 0x1737472756374 14 .leaf) 0x15b75383b20325d 88 .leaf)) 0x15b75383b20345d 87 (.node (.node (.node .leaf 0x15b75383b20385d 86 .leaf) 0x161646472657373 12 .leaf) 0x162616c616e6365 32 (.node .leaf 0x1636f6d70616374 21 .leaf))))

/-- Positions of the keys of `baseReg`, a subtree. -/
def baseIndex1 : KeyTree :=
  .node (.node (.node (.node (.node (.node .leaf 0x1666c6f61743634 6 .leaf) 0x15b75383b2031365d 84 .leaf) 0x15b75383b2032305d 85 (.node (.node .leaf 0x15b75383b2033325d 81 .leaf) 0x15b75383b2036345d 82 .leaf)) 0x15b75383b2036355d 83 (.node (.node (.node .leaf 0x162747265656d6170 58 .leaf) 0x16274726565736574 59 .leaf) 0x16578706f73757265 41 (.node (.node .leaf 0x16865786279746573 24 .leaf) 0x15b753132383b20335d 90 .leaf))) 0x15b75383b203235365d 89 (.node (.node (.node (.node .leaf 0x16163636f756e746964 27 .leaf) 0x1626c6f636b68617368 73 .leaf) 0x1636f6e73656e737573 38 (.node (.node .leaf 0x16c6f67646967657374 33 .leaf) 0x17369676e6174757265 29 .leaf)) 0x1626f756e646564766563 18 (.node (.node (.node .leaf 0x1636f6d70616374753332 22 .leaf) 0x16f706171756563616c6c 55 .leaf) 0x170726572756e74696d65 40 (.node .leaf 0x1736c6f746e756d626572 46 .leaf)))) 0x1626c6f636b6e756d626572 26 (.node (.node (.node (.node (.node .leaf 0x1626f7870726f706f73616c 28 .leaf) 0x1766f74656f7574636f6d65 52 .leaf) 0x1636f6d706163743c7533323e 69 (.node (.node .leaf 0x165726165787472696e736963 31 .leaf) 0x1777261707065726f7061717565 63 .leaf)) 0x165636473617369676e6174757265 49 (.node (.node (.node .leaf 0x167656e6572696361646472657373 54 .leaf) 0x16c6f636b6964656e746966696572 47 .leaf) 0x172616e6765696e636c7573697665 65 (.node (.node .leaf 0x17765616b626f756e646564766563 19 .leaf) 0x16368616e67657374726965726f6f74 35 .leaf))) 0x1636f6d706163743c6d6f6d656e743e 70 (.node (.node (.node (.node .leaf 0x1657468657265756d61646472657373 50 .leaf) 0x172617761757261707265646967657374 42 .leaf) 0x1617574686f7269746965736368616e6765 36 (.node (.node .leaf 0x17375627374726174656669786564753634 66 .leaf) 0x1737562737472617465666978656469313238 67 .leaf)) 0x167656e657269636c6f6f6b7570736f75726365 57 (.node (.node (.node .leaf 0x1726177626162657072656469676573747072696d617279 43 .leaf) 0x1726177626162657072656469676573747365636f6e64617279 44 .leaf) 0x172756e74696d65656e7669726f6e6d656e7475706461746564 62 (.node .leaf 0x1726177626162657072656469676573747365636f6e64617279767266 45 .leaf))))

/-- Positions of the keys of `baseReg`, a subtree. -/
def baseIndex2 : KeyTree :=
  .node baseIndex0 0x1666c6f61743332 7 baseIndex1

/-- Positions of the keys of `baseReg`. -/
def baseIndex : KeyTree :=
  baseIndex2

end ScaleGo.Builtin
