import Verif.Model.MapInterp

/-! # The maps shipped in pycycle/maps, as exact decimals

Generated by tools/map_data.py from the literals in the Python files. -/

namespace PyCycle.MapData

/-- maps/Fan_map.py: axes 17, 18, 19; `WcMap` 21-48, `effMap` 50-77, `PRmap` 79-106;
defaults 12 ff., stall line 15; `alphaMap` default from `param_data`. -/
def FanMap : CTable where
  alpha := [0, 90]
  N := [3/10, 2/5, 1/2, 3/5, 7/10, 3/4, 4/5, 17/20, 9/10, 19/20, 1, 21/20, 11/10, 23/20]
  R := [1, 6/5, 7/5, 8/5, 9/5, 2, 11/5, 12/5, 13/5, 14/5, 3]
  dAlpha := 0
  dN := 99/100
  dR := 11/5
  stall := 1
  W := [[[121797/1000, 30179/200, 89711/500, 8291/40, 234359/1000, 130291/500, 285861/1000, 7753/25, 333291/1000, 71063/200, 46194/125],
     [194867/1000, 227417/1000, 32359/125, 289101/1000, 317981/1000, 345407/1000, 92821/250, 79107/200, 418097/1000, 438921/1000, 457973/1000],
     [6641/25, 7558/25, 337109/1000, 184917/500, 400351/1000, 428543/1000, 11358/25, 477621/1000, 124603/250, 129171/250, 532453/1000],
     [6613/20, 46663/125, 1651/4, 448759/1000, 481163/1000, 509851/1000, 534771/1000, 277963/500, 286683/500, 146797/250, 298763/500],
     [380373/1000, 433991/1000, 60237/125, 65467/125, 279657/500, 29429/50, 611621/1000, 314321/500, 159987/250, 645923/1000, 161793/250],
     [204187/500, 93591/200, 260131/500, 282443/500, 601649/1000, 630583/1000, 65191/100, 83251/125, 84173/125, 134973/200, 134973/200],
     [216247/500, 249559/500, 556491/1000, 604137/1000, 641921/1000, 67001/100, 344419/500, 139809/200, 87692/125, 87692/125, 87692/125],
     [235261/500, 67531/125, 74893/125, 323393/500, 136633/200, 708637/1000, 90482/125, 145941/200, 729841/1000, 729841/1000, 729841/1000],
     [263573/500, 118939/200, 650583/1000, 694581/1000, 726881/1000, 748023/1000, 758831/1000, 190199/250, 190199/250, 190199/250, 190199/250],
     [23721/40, 81696/125, 7027/10, 370219/500, 38357/50, 156689/200, 790213/1000, 790533/1000, 790533/1000, 790533/1000, 790533/1000],
     [643809/1000, 174299/250, 92446/125, 385563/500, 15847/20, 16079/20, 201723/250, 201723/250, 201723/250, 201723/250, 201723/250],
     [17103/25, 729283/1000, 382423/500, 395539/500, 808441/1000, 408777/500, 102427/125, 102427/125, 102427/125, 102427/125, 102427/125],
     [723881/1000, 15211/20, 98649/125, 405047/500, 823667/1000, 830421/1000, 831443/1000, 831443/1000, 831443/1000, 831443/1000, 831443/1000],
     [762811/1000, 790037/1000, 811271/1000, 826753/1000, 418393/500, 210431/250, 84241/100, 84241/100, 84241/100, 84241/100, 84241/100]],
    [[121797/1000, 30179/200, 89711/500, 8291/40, 234359/1000, 130291/500, 285861/1000, 7753/25, 333291/1000, 71063/200, 46194/125],
     [194867/1000, 227417/1000, 32359/125, 289101/1000, 317981/1000, 345407/1000, 92821/250, 79107/200, 418097/1000, 438921/1000, 457973/1000],
     [6641/25, 7558/25, 337109/1000, 184917/500, 400351/1000, 428543/1000, 11358/25, 477621/1000, 124603/250, 129171/250, 532453/1000],
     [6613/20, 46663/125, 1651/4, 448759/1000, 481163/1000, 509851/1000, 534771/1000, 277963/500, 286683/500, 146797/250, 298763/500],
     [380373/1000, 433991/1000, 60237/125, 65467/125, 279657/500, 29429/50, 611621/1000, 314321/500, 159987/250, 645923/1000, 161793/250],
     [204187/500, 93591/200, 260131/500, 282443/500, 601649/1000, 630583/1000, 65191/100, 83251/125, 84173/125, 134973/200, 134973/200],
     [216247/500, 249559/500, 556491/1000, 604137/1000, 641921/1000, 67001/100, 344419/500, 139809/200, 87692/125, 87692/125, 87692/125],
     [235261/500, 67531/125, 74893/125, 323393/500, 136633/200, 708637/1000, 90482/125, 145941/200, 729841/1000, 729841/1000, 729841/1000],
     [263573/500, 118939/200, 650583/1000, 694581/1000, 726881/1000, 748023/1000, 758831/1000, 190199/250, 190199/250, 190199/250, 190199/250],
     [23721/40, 81696/125, 7027/10, 370219/500, 38357/50, 156689/200, 790213/1000, 790533/1000, 790533/1000, 790533/1000, 790533/1000],
     [643809/1000, 174299/250, 92446/125, 385563/500, 15847/20, 16079/20, 201723/250, 201723/250, 201723/250, 201723/250, 201723/250],
     [17103/25, 729283/1000, 382423/500, 395539/500, 808441/1000, 408777/500, 102427/125, 102427/125, 102427/125, 102427/125, 102427/125],
     [723881/1000, 15211/20, 98649/125, 405047/500, 823667/1000, 830421/1000, 831443/1000, 831443/1000, 831443/1000, 831443/1000, 831443/1000],
     [762811/1000, 790037/1000, 811271/1000, 826753/1000, 418393/500, 210431/250, 84241/100, 84241/100, 84241/100, 84241/100, 84241/100]]]
  eff := [[[6931/10000, 959/1250, 4153/5000, 4401/5000, 1139/1250, 9167/10000, 8887/10000, 4069/5000, 3317/5000, 3791/10000, 0],
     [3709/5000, 8033/10000, 1069/1250, 8953/10000, 9199/10000, 9241/10000, 903/1000, 8489/10000, 7461/10000, 709/1250, 2591/10000],
     [7517/10000, 507/625, 8613/10000, 8997/10000, 9233/10000, 9277/10000, 9089/10000, 8607/10000, 482/625, 6201/10000, 93/250],
     [3661/5000, 1597/2000, 8543/10000, 8973/10000, 231/250, 9297/10000, 9103/10000, 2149/2500, 153/200, 6063/10000, 1741/5000],
     [6641/10000, 7519/10000, 1033/1250, 2211/2500, 9213/10000, 2327/2500, 9071/10000, 2103/2500, 7151/10000, 1247/2500, 1381/10000],
     [6357/10000, 293/400, 2037/2500, 8789/10000, 9199/10000, 931/1000, 9059/10000, 167/200, 437/625, 933/2000, 2/25],
     [6109/10000, 1431/2000, 2011/2500, 4369/5000, 9183/10000, 9307/10000, 2261/2500, 4147/5000, 3429/5000, 4403/10000, 347/10000],
     [6261/10000, 3631/5000, 2027/2500, 8763/10000, 9179/10000, 4647/5000, 2263/2500, 1047/1250, 1421/2000, 4991/10000, 13/80],
     [11/16, 7679/10000, 2087/2500, 8857/10000, 9173/10000, 9253/10000, 9067/10000, 8573/10000, 1537/2000, 6279/10000, 167/400],
     [7557/10000, 4059/5000, 536/625, 2229/2500, 9119/10000, 9161/10000, 903/1000, 871/1000, 4081/5000, 7337/10000, 6169/10000],
     [7947/10000, 8341/10000, 541/625, 1777/2000, 4507/5000, 903/1000, 4463/5000, 1739/2000, 1663/2000, 7761/10000, 3499/5000],
     [8153/10000, 8449/10000, 2171/2500, 8851/10000, 447/500, 4471/5000, 8853/10000, 8669/10000, 1047/1250, 3979/5000, 462/625],
     [8289/10000, 8503/10000, 8669/10000, 8783/10000, 4419/5000, 8829/10000, 8753/10000, 538/625, 4193/5000, 2019/2500, 3833/5000],
     [1677/2000, 2133/2500, 8643/10000, 1743/2000, 1749/2000, 1091/1250, 1083/1250, 1069/1250, 8387/10000, 8163/10000, 7873/10000]],
    [[6931/10000, 959/1250, 4153/5000, 4401/5000, 1139/1250, 9167/10000, 8887/10000, 4069/5000, 3317/5000, 3791/10000, 0],
     [3709/5000, 8033/10000, 1069/1250, 8953/10000, 9199/10000, 9241/10000, 903/1000, 8489/10000, 7461/10000, 709/1250, 2591/10000],
     [7517/10000, 507/625, 8613/10000, 8997/10000, 9233/10000, 9277/10000, 9089/10000, 8607/10000, 482/625, 6201/10000, 93/250],
     [3661/5000, 1597/2000, 8543/10000, 8973/10000, 231/250, 9297/10000, 9103/10000, 2149/2500, 153/200, 6063/10000, 1741/5000],
     [6641/10000, 7519/10000, 1033/1250, 2211/2500, 9213/10000, 2327/2500, 9071/10000, 2103/2500, 7151/10000, 1247/2500, 1381/10000],
     [6357/10000, 293/400, 2037/2500, 8789/10000, 9199/10000, 931/1000, 9059/10000, 167/200, 437/625, 933/2000, 2/25],
     [6109/10000, 1431/2000, 2011/2500, 4369/5000, 9183/10000, 9307/10000, 2261/2500, 4147/5000, 3429/5000, 4403/10000, 347/10000],
     [6261/10000, 3631/5000, 2027/2500, 8763/10000, 9179/10000, 4647/5000, 2263/2500, 1047/1250, 1421/2000, 4991/10000, 13/80],
     [11/16, 7679/10000, 2087/2500, 8857/10000, 9173/10000, 9253/10000, 9067/10000, 8573/10000, 1537/2000, 6279/10000, 167/400],
     [7557/10000, 4059/5000, 536/625, 2229/2500, 9119/10000, 9161/10000, 903/1000, 871/1000, 4081/5000, 7337/10000, 6169/10000],
     [7947/10000, 8341/10000, 541/625, 1777/2000, 4507/5000, 903/1000, 4463/5000, 1739/2000, 1663/2000, 7761/10000, 3499/5000],
     [8153/10000, 8449/10000, 2171/2500, 8851/10000, 447/500, 4471/5000, 8853/10000, 8669/10000, 1047/1250, 3979/5000, 462/625],
     [8289/10000, 8503/10000, 8669/10000, 8783/10000, 4419/5000, 8829/10000, 8753/10000, 538/625, 4193/5000, 2019/2500, 3833/5000],
     [1677/2000, 2133/2500, 8643/10000, 1743/2000, 1749/2000, 1091/1250, 1083/1250, 1069/1250, 8387/10000, 8163/10000, 7873/10000]]]
  PR := [[[5273/5000, 5279/5000, 10553/10000, 2633/2500, 5247/5000, 261/250, 2593/2500, 1029/1000, 2549/2500, 10089/10000, 1],
     [5501/5000, 1101/1000, 5497/5000, 2191/2000, 2723/2500, 10807/10000, 5351/5000, 5289/5000, 2609/2500, 5139/5000, 5051/5000],
     [11593/10000, 5803/5000, 724/625, 11527/10000, 5717/5000, 11307/10000, 11149/10000, 2741/2500, 10753/10000, 10517/10000, 5129/5000],
     [12313/10000, 12363/10000, 12353/10000, 12283/10000, 6077/5000, 748/625, 1173/1000, 11449/10000, 89/80, 2691/2500, 5183/5000],
     [6521/5000, 827/625, 6653/5000, 13261/10000, 131/100, 513/400, 249/200, 1499/1250, 11457/10000, 5427/5000, 10193/10000],
     [13479/10000, 551/400, 13917/10000, 13901/10000, 858/625, 6701/5000, 809/625, 1547/1250, 2927/2500, 2739/2500, 10133/10000],
     [2787/2000, 3589/2500, 14581/10000, 7301/5000, 721/500, 351/250, 843/625, 12797/10000, 5991/5000, 2213/2000, 2517/2500],
     [7327/5000, 15127/10000, 15381/10000, 15409/10000, 15209/10000, 14789/10000, 7089/5000, 13413/10000, 12513/10000, 11501/10000, 5203/5000],
     [1583/1000, 16221/10000, 2051/1250, 8193/5000, 3231/2000, 15723/10000, 3779/2500, 14367/10000, 3373/2500, 782/625, 1431/1250],
     [8629/5000, 8747/5000, 3513/2000, 17469/10000, 2151/1250, 16787/10000, 16229/10000, 3111/2000, 7389/5000, 1739/1250, 12969/10000],
     [18381/10000, 2309/1250, 1152/625, 913/500, 449/250, 17537/10000, 8503/5000, 8193/5000, 3921/2500, 1491/1000, 14073/10000],
     [4829/2500, 1207/625, 19197/10000, 18973/10000, 9321/5000, 18209/10000, 17687/10000, 17091/10000, 16427/10000, 7851/5000, 14923/10000],
     [20237/10000, 20149/10000, 1997/1000, 2463/1250, 2419/1250, 9459/5000, 9207/5000, 357/200, 17231/10000, 8281/5000, 1981/1250],
     [21043/10000, 4177/2000, 20659/10000, 10183/5000, 2501/1250, 4897/2500, 9557/5000, 3719/2000, 18033/10000, 17433/10000, 16797/10000]],
    [[5273/5000, 5279/5000, 10553/10000, 2633/2500, 5247/5000, 261/250, 2593/2500, 1029/1000, 2549/2500, 10089/10000, 1],
     [5501/5000, 1101/1000, 5497/5000, 2191/2000, 2723/2500, 10807/10000, 5351/5000, 5289/5000, 2609/2500, 5139/5000, 5051/5000],
     [11593/10000, 5803/5000, 724/625, 11527/10000, 5717/5000, 11307/10000, 11149/10000, 2741/2500, 10753/10000, 10517/10000, 5129/5000],
     [12313/10000, 12363/10000, 12353/10000, 12283/10000, 6077/5000, 748/625, 1173/1000, 11449/10000, 89/80, 2691/2500, 5183/5000],
     [6521/5000, 827/625, 6653/5000, 13261/10000, 131/100, 513/400, 249/200, 1499/1250, 11457/10000, 5427/5000, 10193/10000],
     [13479/10000, 551/400, 13917/10000, 13901/10000, 858/625, 6701/5000, 809/625, 1547/1250, 2927/2500, 2739/2500, 10133/10000],
     [2787/2000, 3589/2500, 14581/10000, 7301/5000, 721/500, 351/250, 843/625, 12797/10000, 5991/5000, 2213/2000, 2517/2500],
     [7327/5000, 15127/10000, 15381/10000, 15409/10000, 15209/10000, 14789/10000, 7089/5000, 13413/10000, 12513/10000, 11501/10000, 5203/5000],
     [1583/1000, 16221/10000, 2051/1250, 8193/5000, 3231/2000, 15723/10000, 3779/2500, 14367/10000, 3373/2500, 782/625, 1431/1250],
     [8629/5000, 8747/5000, 3513/2000, 17469/10000, 2151/1250, 16787/10000, 16229/10000, 3111/2000, 7389/5000, 1739/1250, 12969/10000],
     [18381/10000, 2309/1250, 1152/625, 913/500, 449/250, 17537/10000, 8503/5000, 8193/5000, 3921/2500, 1491/1000, 14073/10000],
     [4829/2500, 1207/625, 19197/10000, 18973/10000, 9321/5000, 18209/10000, 17687/10000, 17091/10000, 16427/10000, 7851/5000, 14923/10000],
     [20237/10000, 20149/10000, 1997/1000, 2463/1250, 2419/1250, 9459/5000, 9207/5000, 357/200, 17231/10000, 8281/5000, 1981/1250],
     [21043/10000, 4177/2000, 20659/10000, 10183/5000, 2501/1250, 4897/2500, 9557/5000, 3719/2000, 18033/10000, 17433/10000, 16797/10000]]]

/-- maps/HPC_map.py: axes 17, 18, 19; `WcMap` 21-48, `effMap` 50-77, `PRmap` 79-106;
defaults 12 ff., stall line 15; `alphaMap` default from `param_data`. -/
def HPCMap : CTable where
  alpha := [0, 90]
  N := [1/2, 3/5, 7/10, 3/4, 4/5, 17/20, 9/10, 37/40, 19/20, 39/40, 1, 41/40, 21/20, 23/20]
  R := [1, 6/5, 7/5, 8/5, 9/5, 2, 11/5, 12/5, 13/5, 14/5, 3]
  dAlpha := 0
  dN := 122/125
  dR := 41/20
  stall := 1
  W := [[[7267/1000, 7543/1000, 3901/500, 4023/500, 8273/1000, 2121/250, 4339/500, 1771/200, 9017/1000, 4581/500, 2323/250],
     [9809/1000, 10081/1000, 10331/1000, 5279/500, 2691/250, 2737/250, 11111/1000, 11253/1000, 5687/500, 459/40, 11557/1000],
     [13119/1000, 13369/1000, 13593/1000, 13791/1000, 3491/250, 14111/1000, 2847/200, 2867/200, 3603/250, 14467/1000, 14501/1000],
     [15487/1000, 7877/500, 1599/100, 4049/250, 4093/250, 16519/1000, 8319/500, 16729/1000, 8397/500, 8417/500, 337/20],
     [1881/100, 9559/500, 9693/500, 9807/500, 4951/250, 4989/250, 20073/1000, 4031/200, 20203/1000, 20219/1000, 20219/1000],
     [12363/500, 25163/1000, 12769/500, 25851/1000, 5221/200, 13151/500, 6611/250, 6633/250, 2657/100, 6643/250, 6643/250],
     [32579/1000, 33147/1000, 8407/250, 1361/40, 1717/50, 4322/125, 4342/125, 4353/125, 8711/250, 8711/250, 8711/250],
     [18659/500, 37919/1000, 19213/500, 38843/1000, 39173/1000, 19709/500, 19791/500, 39669/1000, 7937/200, 7937/200, 7937/200],
     [42541/1000, 43049/1000, 43481/1000, 1096/25, 22063/500, 44343/1000, 44493/1000, 44579/1000, 44603/1000, 44603/1000, 44603/1000],
     [2387/50, 6019/125, 9701/200, 48801/1000, 1226/25, 1969/40, 24679/500, 1236/25, 6184/125, 49473/1000, 49473/1000],
     [6654/125, 26733/500, 6709/125, 53849/1000, 26999/500, 1353/25, 6777/125, 10857/200, 5433/100, 54349/1000, 1087/20],
     [27807/500, 55749/1000, 5587/100, 6997/125, 14017/250, 28073/500, 56211/1000, 56261/1000, 56299/1000, 56323/1000, 11267/200],
     [14473/250, 57961/1000, 58023/1000, 58079/1000, 5813/100, 29087/500, 58213/1000, 11649/200, 58273/1000, 29147/500, 5831/100],
     [1524/25, 60963/1000, 30483/500, 60969/1000, 15243/250, 2439/40, 60977/1000, 3049/50, 60983/1000, 12197/200, 60987/1000]],
    [[3677/250, 1513/100, 1937/125, 15807/1000, 2008/125, 16269/1000, 2053/125, 1653/100, 16591/1000, 2076/125, 2076/125],
     [471/25, 19257/1000, 3923/200, 9957/500, 20157/1000, 10173/500, 10241/500, 20569/1000, 20607/1000, 2061/100, 2061/100],
     [23739/1000, 24131/1000, 24469/1000, 24753/1000, 12493/500, 3146/125, 12651/500, 2539/100, 25433/1000, 25439/1000, 25439/1000],
     [13429/500, 27271/1000, 221/8, 6981/250, 28167/1000, 7089/250, 14247/500, 28583/1000, 3578/125, 7157/250, 7157/250],
     [3848/125, 31249/1000, 3956/125, 1599/50, 4031/125, 16227/500, 32601/1000, 3269/100, 8181/250, 1309/40, 1309/40],
     [36143/1000, 18371/500, 4656/125, 4708/125, 37993/1000, 38237/1000, 38401/1000, 4811/125, 7701/200, 7701/200, 7701/200],
     [41743/1000, 5304/125, 43011/1000, 43483/1000, 43851/1000, 44119/1000, 44291/1000, 44371/1000, 44379/1000, 44379/1000, 44379/1000],
     [44341/1000, 1801/40, 45599/1000, 23033/500, 4643/100, 9339/200, 5858/125, 46943/1000, 46949/1000, 46949/1000, 46949/1000],
     [9471/200, 47903/1000, 24183/500, 12187/250, 981/20, 12319/250, 49427/1000, 12377/250, 49523/1000, 49523/1000, 49523/1000],
     [25087/500, 253/5, 50963/1000, 51267/1000, 51511/1000, 51699/1000, 51831/1000, 51911/1000, 25969/500, 25969/500, 25969/500],
     [6654/125, 26733/500, 6709/125, 53849/1000, 26999/500, 1353/25, 6777/125, 10857/200, 5433/100, 54349/1000, 1087/20],
     [27807/500, 55749/1000, 5587/100, 6997/125, 14017/250, 28073/500, 56211/1000, 56261/1000, 56299/1000, 56323/1000, 11267/200],
     [14473/250, 57961/1000, 58023/1000, 58079/1000, 5813/100, 29087/500, 58213/1000, 11649/200, 58273/1000, 29147/500, 5831/100],
     [1524/25, 60963/1000, 30483/500, 60969/1000, 15243/250, 2439/40, 60977/1000, 3049/50, 60983/1000, 12197/200, 60987/1000]]]
  eff := [[[897/1250, 1819/2500, 458/625, 3661/5000, 7247/10000, 709/1000, 3403/5000, 6339/10000, 5639/10000, 4639/10000, 3239/10000],
     [1469/2000, 7429/10000, 7471/10000, 7467/10000, 7407/10000, 3641/5000, 353/500, 3351/5000, 6179/10000, 109/200, 893/2000],
     [3779/5000, 7623/10000, 7657/10000, 7653/10000, 7609/10000, 1879/2500, 1471/2000, 71/100, 3367/5000, 6239/10000, 5589/10000],
     [1537/2000, 1939/2500, 1559/2000, 39/50, 1553/2000, 7687/10000, 943/1250, 1463/2000, 1397/2000, 3269/5000, 1191/2000],
     [3923/5000, 991/1250, 7979/10000, 1999/2500, 319/400, 791/1000, 7783/10000, 7571/10000, 7261/10000, 6839/10000, 6287/10000],
     [4051/5000, 4109/5000, 83/100, 1669/2000, 2087/2500, 8303/10000, 8191/10000, 499/625, 767/1000, 7233/10000, 3327/5000],
     [8343/10000, 8477/10000, 8577/10000, 8639/10000, 8659/10000, 1079/1250, 8537/10000, 8349/10000, 1611/2000, 3821/5000, 7093/10000],
     [8423/10000, 4277/5000, 8651/10000, 8713/10000, 1747/2000, 8713/10000, 2157/2500, 1057/1250, 8189/10000, 3907/5000, 1829/2500],
     [536/625, 8673/10000, 1749/2000, 879/1000, 2201/2500, 4393/5000, 4361/5000, 2149/2500, 2101/2500, 8137/10000, 7789/10000],
     [8593/10000, 8659/10000, 8707/10000, 4367/5000, 8739/10000, 8721/10000, 8671/10000, 8579/10000, 211/250, 8253/10000, 2003/2500],
     [8633/10000, 4329/5000, 4337/5000, 8681/10000, 8677/10000, 4331/5000, 1079/1250, 1073/1250, 2129/2500, 8427/10000, 2079/2500],
     [524/625, 8389/10000, 839/1000, 1677/2000, 1047/1250, 8361/10000, 8339/10000, 8309/10000, 8269/10000, 411/500, 4081/5000],
     [8113/10000, 8109/10000, 8103/10000, 1619/2000, 4043/5000, 4037/5000, 8059/10000, 4021/5000, 401/500, 1599/2000, 7967/10000],
     [7363/10000, 7361/10000, 7359/10000, 7357/10000, 1471/2000, 7353/10000, 7351/10000, 1837/2500, 3673/5000, 459/625, 3671/5000]],
    [[468/625, 7639/10000, 387/500, 3893/5000, 7767/10000, 767/1000, 466/625, 283/400, 649/1000, 1413/2500, 281/625],
     [7761/10000, 493/625, 997/1250, 4009/5000, 1001/1250, 7937/10000, 7779/10000, 937/1250, 7067/10000, 3233/5000, 5657/10000],
     [8081/10000, 8183/10000, 4127/5000, 829/1000, 8287/10000, 103/125, 813/1000, 3967/5000, 7639/10000, 7233/10000, 6697/10000],
     [1027/1250, 4159/5000, 839/1000, 8429/10000, 8431/10000, 8393/10000, 1037/1250, 203/250, 1571/2000, 7489/10000, 438/625],
     [8341/10000, 169/200, 8529/10000, 536/625, 4293/5000, 1711/2000, 8467/10000, 8301/10000, 8047/10000, 3847/5000, 723/1000],
     [21/25, 8533/10000, 8633/10000, 1739/2000, 8717/10000, 4347/5000, 4303/5000, 8429/10000, 8153/10000, 1553/2000, 29/40],
     [8453/10000, 1719/2000, 8703/10000, 8773/10000, 8801/10000, 8783/10000, 8699/10000, 341/400, 33/40, 7863/10000, 7349/10000],
     [8449/10000, 4291/5000, 8683/10000, 8747/10000, 2193/2500, 4377/5000, 4337/5000, 851/1000, 8253/10000, 1973/2500, 927/1250],
     [1703/2000, 8611/10000, 4341/5000, 4363/5000, 8739/10000, 8721/10000, 8657/10000, 2133/2500, 4171/5000, 101/125, 7739/10000],
     [2141/2500, 863/1000, 8677/10000, 544/625, 8709/10000, 8691/10000, 8641/10000, 2137/2500, 8411/10000, 329/400, 3993/5000],
     [8633/10000, 4329/5000, 4337/5000, 8681/10000, 8677/10000, 4331/5000, 1079/1250, 1073/1250, 2129/2500, 8427/10000, 2079/2500],
     [524/625, 8389/10000, 839/1000, 1677/2000, 1047/1250, 8361/10000, 8339/10000, 8309/10000, 8269/10000, 411/500, 4081/5000],
     [8113/10000, 8109/10000, 8103/10000, 1619/2000, 4043/5000, 4037/5000, 8059/10000, 4021/5000, 401/500, 1599/2000, 7967/10000],
     [7363/10000, 7361/10000, 7359/10000, 7357/10000, 1471/2000, 7353/10000, 7351/10000, 1837/2500, 3673/5000, 459/625, 3671/5000]]]
  PR := [[[8237/5000, 8089/5000, 1583/1000, 1929/1250, 3747/2500, 14501/10000, 6979/5000, 267/200, 3171/2500, 11967/10000, 1121/1000],
     [5131/2500, 20061/10000, 2441/1250, 1183/625, 18267/10000, 17549/10000, 419/250, 15887/10000, 7471/5000, 13937/10000, 12887/10000],
     [26917/10000, 1639/625, 25441/10000, 12287/5000, 2363/1000, 11309/5000, 21517/10000, 2539/1250, 951/500, 17659/10000, 16247/10000],
     [7961/2500, 30989/10000, 30017/10000, 14469/5000, 27763/10000, 26501/10000, 3141/1250, 189/80, 1376/625, 813/400, 1161/625],
     [19573/5000, 38061/10000, 36811/10000, 8853/2500, 8469/2500, 32221/10000, 7603/2500, 7107/2500, 26301/10000, 2407/1000, 2177/1000],
     [13187/2500, 51343/10000, 1241/250, 47661/10000, 22717/5000, 42989/10000, 2517/625, 149/40, 33991/10000, 30567/10000, 13527/5000],
     [72269/10000, 35241/5000, 34107/5000, 131/20, 31191/5000, 58909/10000, 54999/10000, 10121/2000, 573/125, 20413/5000, 8923/2500],
     [84539/10000, 82523/10000, 15989/2000, 19211/2500, 73269/10000, 2771/400, 16191/2500, 59681/10000, 27077/5000, 24163/5000, 5293/1250],
     [97989/10000, 47833/5000, 23211/2500, 89557/10000, 17169/2000, 10219/1250, 38591/5000, 18017/2500, 4157/625, 97/16, 27261/5000],
     [27741/2500, 54197/5000, 105411/10000, 2551/250, 98313/10000, 94263/10000, 449/50, 10607/1250, 4969/625, 73823/10000, 33949/5000],
     [123279/10000, 120811/10000, 118131/10000, 115251/10000, 112183/10000, 5447/500, 52733/5000, 6357/625, 19541/2000, 5842/625, 17809/2000],
     [128281/10000, 63049/5000, 61907/5000, 121431/10000, 118957/10000, 23279/2000, 22743/2000, 22177/2000, 107917/10000, 104821/10000, 101607/10000],
     [16623/1250, 32827/2500, 129593/10000, 127839/10000, 7878/625, 62111/5000, 24469/2000, 24081/2000, 29601/2500, 116343/10000, 28557/2500],
     [69703/5000, 139123/10000, 3471/250, 34639/2500, 8642/625, 34497/2500, 137703/10000, 137417/10000, 13713/1000, 68421/5000, 68277/5000]],
    [[4057/1250, 1974/625, 3049/1000, 29191/10000, 27709/10000, 13033/5000, 6057/2500, 887/400, 19961/10000, 17647/10000, 15293/10000],
     [40747/10000, 2476/625, 38233/10000, 36619/10000, 17399/5000, 8199/2500, 30571/10000, 28099/10000, 318/125, 11329/5000, 19823/10000],
     [49841/10000, 24249/5000, 9381/2000, 45081/10000, 43049/10000, 2552/625, 2399/625, 17837/5000, 8189/2500, 29689/10000, 13267/5000],
     [56533/10000, 55043/10000, 5327/1000, 51237/10000, 6121/1250, 4649/1000, 43749/10000, 4071/1000, 18717/5000, 6797/2000, 30431/10000],
     [66069/10000, 103/16, 62327/10000, 1199/200, 57277/10000, 54339/10000, 51073/10000, 23717/5000, 43501/10000, 7871/2000, 8771/2500],
     [81407/10000, 79453/10000, 1539/200, 73939/10000, 35233/5000, 66587/10000, 31103/5000, 5727/1000, 51907/10000, 9251/2000, 40459/10000],
     [24759/2500, 48413/5000, 46937/5000, 90231/10000, 2149/250, 16227/2000, 75633/10000, 13877/2000, 6257/1000, 55381/10000, 48019/10000],
     [106503/10000, 104133/10000, 50497/5000, 97137/10000, 92627/10000, 87539/10000, 5109/625, 37583/5000, 33993/5000, 30201/5000, 26309/5000],
     [113117/10000, 110497/10000, 13409/1250, 51741/5000, 49587/5000, 94403/10000, 22263/2500, 83043/10000, 38251/5000, 69563/10000, 6237/1000],
     [119341/10000, 116599/10000, 113401/10000, 6861/625, 105759/10000, 12673/1250, 19311/2000, 91197/10000, 8539/1000, 79223/10000, 72789/10000],
     [123279/10000, 120811/10000, 118131/10000, 115251/10000, 112183/10000, 5447/500, 52733/5000, 6357/625, 19541/2000, 5842/625, 17809/2000],
     [128281/10000, 63049/5000, 61907/5000, 121431/10000, 118957/10000, 23279/2000, 22743/2000, 22177/2000, 107917/10000, 104821/10000, 101607/10000],
     [16623/1250, 32827/2500, 129593/10000, 127839/10000, 7878/625, 62111/5000, 24469/2000, 24081/2000, 29601/2500, 116343/10000, 28557/2500],
     [69703/5000, 139123/10000, 3471/250, 34639/2500, 8642/625, 34497/2500, 137703/10000, 137417/10000, 13713/1000, 68421/5000, 68277/5000]]]

/-- maps/LPC_map.py: axes 15, 16, 17; `WcMap` 19-46, `effMap` 48-75, `PRmap` 77-104;
defaults 10 ff., stall line 13; `alphaMap` default from `param_data`. -/
def LPCMap : CTable where
  alpha := [0, 90]
  N := [3/10, 2/5, 1/2, 3/5, 7/10, 3/4, 4/5, 17/20, 9/10, 19/20, 1, 21/20, 11/10, 23/20]
  R := [1, 6/5, 7/5, 8/5, 9/5, 2, 11/5, 12/5, 13/5, 14/5, 3]
  dAlpha := 0
  dN := 1
  dR := 43/20
  stall := 1
  W := [[[17907/1000, 19339/1000, 20749/1000, 2767/125, 11749/500, 24833/1000, 26141/1000, 1371/50, 28669/1000, 29887/1000, 31011/1000],
     [24951/1000, 13371/500, 5697/200, 30177/1000, 6363/200, 33397/1000, 34921/1000, 7277/200, 9447/250, 4891/125, 8081/200],
     [16341/500, 6943/200, 18331/500, 963/25, 20143/500, 20979/500, 43533/1000, 45011/1000, 4639/100, 47669/1000, 6106/125],
     [40927/1000, 8623/200, 5646/125, 47083/1000, 24429/500, 12623/250, 51983/1000, 53331/1000, 54539/1000, 55607/1000, 56537/1000],
     [997/20, 26061/500, 10839/200, 14017/250, 57741/1000, 11843/200, 30247/500, 3079/50, 62479/1000, 63197/1000, 63739/1000],
     [27399/500, 28533/500, 59099/1000, 60897/1000, 62463/1000, 319/5, 64913/1000, 6581/100, 66497/1000, 66983/1000, 33639/500],
     [60051/1000, 15563/250, 12837/200, 65851/1000, 13451/200, 13681/200, 69307/1000, 69973/1000, 70413/1000, 35319/500, 2827/40],
     [65313/1000, 67427/1000, 34631/500, 8853/125, 36059/500, 73153/1000, 36969/500, 18621/250, 74803/1000, 74907/1000, 74907/1000],
     [14199/200, 36451/500, 37271/500, 1898/25, 77043/1000, 1948/25, 1964/25, 39487/500, 39587/500, 39599/500, 39599/500],
     [77441/1000, 9863/125, 16031/200, 81199/1000, 41021/500, 8269/100, 83151/1000, 41717/500, 16709/200, 20887/250, 20887/250],
     [10543/125, 85211/1000, 10744/125, 21643/250, 43537/500, 4373/50, 17547/200, 87903/1000, 87967/1000, 10996/125, 10996/125],
     [17861/200, 89687/1000, 3601/40, 2258/25, 22643/250, 90783/1000, 90953/1000, 91083/1000, 45587/500, 91227/1000, 91243/1000],
     [46813/500, 11714/125, 93793/1000, 23467/250, 93939/1000, 23501/250, 11758/125, 2353/25, 9417/100, 11777/125, 94257/1000],
     [24021/250, 48037/500, 12008/125, 48027/500, 24011/250, 96033/1000, 48011/500, 24003/250, 96, 95989/1000, 47989/500]],
    [[17907/1000, 19339/1000, 20749/1000, 2767/125, 11749/500, 24833/1000, 26141/1000, 1371/50, 28669/1000, 29887/1000, 31011/1000],
     [24951/1000, 13371/500, 5697/200, 30177/1000, 6363/200, 33397/1000, 34921/1000, 7277/200, 9447/250, 4891/125, 8081/200],
     [16341/500, 6943/200, 18331/500, 963/25, 20143/500, 20979/500, 43533/1000, 45011/1000, 4639/100, 47669/1000, 6106/125],
     [40927/1000, 8623/200, 5646/125, 47083/1000, 24429/500, 12623/250, 51983/1000, 53331/1000, 54539/1000, 55607/1000, 56537/1000],
     [997/20, 26061/500, 10839/200, 14017/250, 57741/1000, 11843/200, 30247/500, 3079/50, 62479/1000, 63197/1000, 63739/1000],
     [27399/500, 28533/500, 59099/1000, 60897/1000, 62463/1000, 319/5, 64913/1000, 6581/100, 66497/1000, 66983/1000, 33639/500],
     [60051/1000, 15563/250, 12837/200, 65851/1000, 13451/200, 13681/200, 69307/1000, 69973/1000, 70413/1000, 35319/500, 2827/40],
     [65313/1000, 67427/1000, 34631/500, 8853/125, 36059/500, 73153/1000, 36969/500, 18621/250, 74803/1000, 74907/1000, 74907/1000],
     [14199/200, 36451/500, 37271/500, 1898/25, 77043/1000, 1948/25, 1964/25, 39487/500, 39587/500, 39599/500, 39599/500],
     [77441/1000, 9863/125, 16031/200, 81199/1000, 41021/500, 8269/100, 83151/1000, 41717/500, 16709/200, 20887/250, 20887/250],
     [10543/125, 85211/1000, 10744/125, 21643/250, 43537/500, 4373/50, 17547/200, 87903/1000, 87967/1000, 10996/125, 10996/125],
     [17861/200, 89687/1000, 3601/40, 2258/25, 22643/250, 90783/1000, 90953/1000, 91083/1000, 45587/500, 91227/1000, 91243/1000],
     [46813/500, 11714/125, 93793/1000, 23467/250, 93939/1000, 23501/250, 11758/125, 2353/25, 9417/100, 11777/125, 94257/1000],
     [24021/250, 48037/500, 12008/125, 48027/500, 24011/250, 96033/1000, 48011/500, 24003/250, 96, 95989/1000, 47989/500]]]
  eff := [[[807/1000, 8291/10000, 8461/10000, 4283/5000, 4293/5000, 8497/10000, 817/1000, 741/1000, 3011/5000, 1837/5000, 0],
     [823/1000, 4227/5000, 2157/2500, 8741/10000, 351/400, 2177/2500, 8419/10000, 1933/2500, 6477/10000, 1093/2500, 229/2500],
     [8411/10000, 8631/10000, 1761/2000, 8921/10000, 4483/5000, 4459/5000, 8671/10000, 1613/2000, 6959/10000, 1281/2500, 271/1250],
     [1713/2000, 8783/10000, 8957/10000, 9077/10000, 9131/10000, 9099/10000, 8883/10000, 4169/5000, 367/500, 356/625, 3083/10000],
     [4331/5000, 8879/10000, 1811/2000, 9179/10000, 9239/10000, 9219/10000, 564/625, 213/250, 19/25, 381/625, 3739/10000],
     [8699/10000, 8917/10000, 9093/10000, 4609/5000, 9281/10000, 1853/2000, 227/250, 4299/5000, 7721/10000, 6297/10000, 4089/10000],
     [8743/10000, 8957/10000, 913/1000, 9253/10000, 2329/2500, 1163/1250, 9131/10000, 4339/5000, 3929/5000, 3269/5000, 4519/10000],
     [2209/2500, 4513/5000, 9179/10000, 9287/10000, 4671/5000, 9331/10000, 9183/10000, 2201/2500, 508/625, 1413/2000, 1097/2000],
     [8943/10000, 9103/10000, 923/1000, 9319/10000, 4681/5000, 9351/10000, 9231/10000, 893/1000, 4203/5000, 3801/5000, 3221/5000],
     [453/500, 9169/10000, 9253/10000, 931/1000, 4667/5000, 9321/10000, 2309/2500, 2259/2500, 8703/10000, 8211/10000, 7529/10000],
     [917/1000, 1153/1250, 579/625, 1161/1250, 9293/10000, 116/125, 9231/10000, 9127/10000, 4481/5000, 873/1000, 8423/10000],
     [9159/10000, 9171/10000, 1147/1250, 9177/10000, 9171/10000, 9159/10000, 571/625, 9097/10000, 4521/5000, 1121/1250, 2219/2500],
     [9061/10000, 9059/10000, 1811/2000, 2263/2500, 9047/10000, 4521/5000, 2259/2500, 2257/2500, 4509/5000, 9007/10000, 4497/5000],
     [4481/5000, 2241/2500, 1793/2000, 4483/5000, 8967/10000, 1121/1250, 8969/10000, 897/1000, 8971/10000, 2243/2500, 8973/10000]],
    [[807/1000, 8291/10000, 8461/10000, 4283/5000, 4293/5000, 8497/10000, 817/1000, 741/1000, 3011/5000, 1837/5000, 0],
     [823/1000, 4227/5000, 2157/2500, 8741/10000, 351/400, 2177/2500, 8419/10000, 1933/2500, 6477/10000, 1093/2500, 229/2500],
     [8411/10000, 8631/10000, 1761/2000, 8921/10000, 4483/5000, 4459/5000, 8671/10000, 1613/2000, 6959/10000, 1281/2500, 271/1250],
     [1713/2000, 8783/10000, 8957/10000, 9077/10000, 9131/10000, 9099/10000, 8883/10000, 4169/5000, 367/500, 356/625, 3083/10000],
     [4331/5000, 8879/10000, 1811/2000, 9179/10000, 9239/10000, 9219/10000, 564/625, 213/250, 19/25, 381/625, 3739/10000],
     [8699/10000, 8917/10000, 9093/10000, 4609/5000, 9281/10000, 1853/2000, 227/250, 4299/5000, 7721/10000, 6297/10000, 4089/10000],
     [8743/10000, 8957/10000, 913/1000, 9253/10000, 2329/2500, 1163/1250, 9131/10000, 4339/5000, 3929/5000, 3269/5000, 4519/10000],
     [2209/2500, 4513/5000, 9179/10000, 9287/10000, 4671/5000, 9331/10000, 9183/10000, 2201/2500, 508/625, 1413/2000, 1097/2000],
     [8943/10000, 9103/10000, 923/1000, 9319/10000, 4681/5000, 9351/10000, 9231/10000, 893/1000, 4203/5000, 3801/5000, 3221/5000],
     [453/500, 9169/10000, 9253/10000, 931/1000, 4667/5000, 9321/10000, 2309/2500, 2259/2500, 8703/10000, 8211/10000, 7529/10000],
     [917/1000, 1153/1250, 579/625, 1161/1250, 9293/10000, 116/125, 9231/10000, 9127/10000, 4481/5000, 873/1000, 8423/10000],
     [9159/10000, 9171/10000, 1147/1250, 9177/10000, 9171/10000, 9159/10000, 571/625, 9097/10000, 4521/5000, 1121/1250, 2219/2500],
     [9061/10000, 9059/10000, 1811/2000, 2263/2500, 9047/10000, 4521/5000, 2259/2500, 2257/2500, 4509/5000, 9007/10000, 4497/5000],
     [4481/5000, 2241/2500, 1793/2000, 4483/5000, 8967/10000, 1121/1250, 8969/10000, 897/1000, 8971/10000, 2243/2500, 8973/10000]]]
  PR := [[[5339/5000, 10649/10000, 10613/10000, 10571/10000, 5261/5000, 2617/2500, 5201/5000, 5161/5000, 10227/10000, 10117/10000, 1],
     [11239/10000, 5593/5000, 5561/5000, 11047/10000, 5481/5000, 2173/2000, 10751/10000, 10611/10000, 2089/2000, 10257/10000, 2009/2000],
     [5997/5000, 1191/1000, 11809/10000, 11691/10000, 5779/5000, 11409/10000, 11233/10000, 551/500, 10771/10000, 1311/1250, 10173/10000],
     [12981/10000, 2571/2000, 6353/5000, 12533/10000, 12339/10000, 6061/5000, 11869/10000, 11563/10000, 1121/1000, 10811/10000, 1037/1000],
     [14289/10000, 14111/10000, 13899/10000, 2731/2000, 669/500, 3269/2500, 159/125, 2459/2000, 2951/2500, 5627/5000, 5327/5000],
     [7559/5000, 14909/10000, 14661/10000, 23/16, 3513/2500, 2739/2000, 6639/5000, 12779/10000, 2441/2000, 2313/2000, 2717/2500],
     [1607/1000, 15827/10000, 7769/5000, 3041/2000, 14831/10000, 14417/10000, 6967/5000, 6679/5000, 12697/10000, 5981/5000, 2233/2000],
     [429/250, 16881/10000, 3311/2000, 16183/10000, 15767/10000, 957/625, 2957/2000, 177/125, 1681/1250, 633/500, 738/625],
     [9201/5000, 9043/5000, 4431/2500, 8659/5000, 16869/10000, 16381/10000, 989/625, 1517/1000, 1443/1000, 2723/2000, 796/625],
     [1993/1000, 19587/10000, 9603/5000, 4697/2500, 1146/625, 4463/2500, 17309/10000, 3337/2000, 3997/2500, 609/400, 2881/2000],
     [21593/10000, 21257/10000, 20899/10000, 10259/5000, 20117/10000, 3939/2000, 3847/2000, 4681/2500, 18163/10000, 17557/10000, 16909/10000],
     [5691/2500, 2251/1000, 2781/1250, 10989/5000, 21701/10000, 2677/1250, 10559/5000, 20801/10000, 1279/625, 5027/2500, 3947/2000],
     [23771/10000, 1479/625, 23557/10000, 2931/1250, 23339/10000, 23229/10000, 11559/5000, 5751/2500, 22887/10000, 1423/625, 11323/5000],
     [24343/10000, 4873/2000, 24387/10000, 24409/10000, 2443/1000, 6113/2500, 24473/10000, 4899/2000, 6129/2500, 12269/5000, 24559/10000]],
    [[5339/5000, 10649/10000, 10613/10000, 10571/10000, 5261/5000, 2617/2500, 5201/5000, 5161/5000, 10227/10000, 10117/10000, 1],
     [11239/10000, 5593/5000, 5561/5000, 11047/10000, 5481/5000, 2173/2000, 10751/10000, 10611/10000, 2089/2000, 10257/10000, 2009/2000],
     [5997/5000, 1191/1000, 11809/10000, 11691/10000, 5779/5000, 11409/10000, 11233/10000, 551/500, 10771/10000, 1311/1250, 10173/10000],
     [12981/10000, 2571/2000, 6353/5000, 12533/10000, 12339/10000, 6061/5000, 11869/10000, 11563/10000, 1121/1000, 10811/10000, 1037/1000],
     [14289/10000, 14111/10000, 13899/10000, 2731/2000, 669/500, 3269/2500, 159/125, 2459/2000, 2951/2500, 5627/5000, 5327/5000],
     [7559/5000, 14909/10000, 14661/10000, 23/16, 3513/2500, 2739/2000, 6639/5000, 12779/10000, 2441/2000, 2313/2000, 2717/2500],
     [1607/1000, 15827/10000, 7769/5000, 3041/2000, 14831/10000, 14417/10000, 6967/5000, 6679/5000, 12697/10000, 5981/5000, 2233/2000],
     [429/250, 16881/10000, 3311/2000, 16183/10000, 15767/10000, 957/625, 2957/2000, 177/125, 1681/1250, 633/500, 738/625],
     [9201/5000, 9043/5000, 4431/2500, 8659/5000, 16869/10000, 16381/10000, 989/625, 1517/1000, 1443/1000, 2723/2000, 796/625],
     [1993/1000, 19587/10000, 9603/5000, 4697/2500, 1146/625, 4463/2500, 17309/10000, 3337/2000, 3997/2500, 609/400, 2881/2000],
     [21593/10000, 21257/10000, 20899/10000, 10259/5000, 20117/10000, 3939/2000, 3847/2000, 4681/2500, 18163/10000, 17557/10000, 16909/10000],
     [5691/2500, 2251/1000, 2781/1250, 10989/5000, 21701/10000, 2677/1250, 10559/5000, 20801/10000, 1279/625, 5027/2500, 3947/2000],
     [23771/10000, 1479/625, 23557/10000, 2931/1250, 23339/10000, 23229/10000, 11559/5000, 5751/2500, 22887/10000, 1423/625, 11323/5000],
     [24343/10000, 4873/2000, 24387/10000, 24409/10000, 2443/1000, 6113/2500, 24473/10000, 4899/2000, 6129/2500, 12269/5000, 24559/10000]]]

/-- maps/axi3_2.py: axes 18, 19-20, 21-22; `WcMap` 24-62, `effMap` 64-83, `PRmap` 85-120;
defaults 12 ff., stall line 15; `alphaMap` default from `param_data`. -/
def axi32 : CTable where
  alpha := [0, 90]
  N := [2/5, 1/2, 3/5, 7/10, 4/5, 9/10, 19/20, 1, 21/20, 11/10]
  R := [1, 6/5, 7/5, 8/5, 9/5, 2, 11/5, 12/5, 13/5]
  dAlpha := 0
  dN := 1
  dR := 2
  stall := 1
  W := [[[832/125, 3689/500, 202/25, 8763/1000, 9423/1000, 503/50, 10673/1000, 563/50, 591/50],
     [9491/1000, 2547/250, 543/50, 2301/200, 6061/500, 1271/100, 3317/250, 3449/250, 14293/1000],
     [11897/1000, 6357/500, 13487/1000, 7107/500, 14893/1000, 3881/250, 3221/200, 16637/1000, 428/25],
     [14089/1000, 1899/125, 4051/250, 4281/250, 4487/250, 4669/250, 19309/1000, 19847/1000, 5073/250],
     [8357/500, 9093/500, 1949/100, 10311/500, 21579/1000, 5591/250, 22981/1000, 5859/250, 11869/500],
     [9429/500, 4207/200, 5721/250, 12199/500, 25579/1000, 6609/250, 26987/1000, 13627/500, 2729/100],
     [22503/1000, 24231/1000, 12839/500, 26847/1000, 3468/125, 28379/1000, 3596/125, 2893/100, 28937/1000],
     [27711/1000, 14181/500, 14457/500, 3671/125, 29729/1000, 30, 3773/125, 15143/500, 3789/125],
     [3738/125, 30161/1000, 3798/125, 7643/250, 30727/1000, 617/20, 30941/1000, 15501/500, 31033/1000],
     [6197/200, 15551/500, 7801/250, 31291/1000, 31363/1000, 31421/1000, 6293/200, 6299/200, 3939/125]],
    [[10501/1000, 2307/200, 1251/100, 6711/500, 14269/1000, 1881/125, 7879/500, 8199/500, 16967/1000],
     [15757/1000, 2089/125, 4397/250, 18381/1000, 19093/1000, 9861/500, 2027/100, 20737/1000, 10563/500],
     [18067/1000, 19097/1000, 10011/500, 521/25, 21553/1000, 22161/1000, 11333/500, 2884/125, 23381/1000],
     [2418/125, 10333/500, 873/40, 11409/500, 2956/125, 12159/500, 24833/1000, 25199/1000, 1017/40],
     [2558/125, 22123/1000, 11771/500, 618/25, 25661/1000, 2637/100, 26859/1000, 13571/500, 5447/200],
     [2101/100, 23199/1000, 1001/40, 26483/1000, 27581/1000, 14167/500, 7191/250, 14449/500, 14449/500],
     [11791/500, 25289/1000, 3338/125, 2783/100, 14337/500, 29249/1000, 1183/40, 29669/1000, 29669/1000],
     [27711/1000, 14181/500, 14457/500, 3671/125, 29729/1000, 30, 3773/125, 15143/500, 3789/125],
     [3738/125, 30161/1000, 3798/125, 7643/250, 30727/1000, 617/20, 30941/1000, 15501/500, 31033/1000],
     [6197/200, 15551/500, 7801/250, 31291/1000, 31363/1000, 31421/1000, 6293/200, 6299/200, 3939/125]]]
  eff := [[[6351/10000, 3443/5000, 7311/10000, 1901/2500, 1933/2500, 957/1250, 7301/10000, 3283/5000, 5323/10000],
     [436/625, 1477/2000, 3853/5000, 1981/2500, 8017/10000, 7961/10000, 771/1000, 7203/10000, 6373/10000],
     [353/500, 3761/5000, 789/1000, 8149/10000, 2069/2500, 8243/10000, 8001/10000, 1871/2500, 331/500],
     [6777/10000, 739/1000, 7891/10000, 8257/10000, 4229/5000, 1691/2000, 8181/10000, 377/500, 6423/10000],
     [6433/10000, 7197/10000, 1957/2500, 8299/10000, 2143/2500, 8601/10000, 8299/10000, 1887/2500, 3101/5000],
     [5603/10000, 6639/10000, 3753/5000, 8167/10000, 1071/1250, 8639/10000, 2063/2500, 361/500, 5303/10000],
     [3129/5000, 1771/2500, 3883/5000, 2069/2500, 536/625, 8619/10000, 8317/10000, 7553/10000, 6187/10000],
     [773/1000, 8037/10000, 2069/2500, 4221/5000, 8523/10000, 851/1000, 4191/5000, 1623/2000, 7689/10000],
     [8181/10000, 8289/10000, 8367/10000, 4207/5000, 8427/10000, 2101/2500, 8337/10000, 8223/10000, 1611/2000],
     [4119/5000, 207/250, 8307/10000, 4159/5000, 1039/1250, 8289/10000, 4123/5000, 409/500, 8091/10000]],
    [[6421/10000, 7081/10000, 381/500, 8011/10000, 411/500, 8199/10000, 3931/5000, 443/625, 1431/2500],
     [18/25, 7689/10000, 8083/10000, 1673/2000, 1703/2000, 1701/2000, 829/1000, 7807/10000, 6989/10000],
     [3617/5000, 7737/10000, 8143/10000, 2109/2500, 1719/2000, 1719/2000, 839/1000, 99/125, 1781/2500],
     [1709/2500, 7479/10000, 1601/2000, 8391/10000, 2153/2500, 863/1000, 8383/10000, 7787/10000, 6749/10000],
     [6399/10000, 1437/2000, 3917/5000, 4159/5000, 8601/10000, 8639/10000, 4173/5000, 7611/10000, 3149/5000],
     [697/1250, 827/1250, 3743/5000, 8147/10000, 2137/2500, 8619/10000, 8237/10000, 3611/5000, 5347/10000],
     [6217/10000, 88/125, 7719/10000, 329/400, 8521/10000, 107/125, 8257/10000, 937/1250, 6143/10000],
     [773/1000, 8037/10000, 2069/2500, 4221/5000, 8523/10000, 851/1000, 4191/5000, 1623/2000, 7689/10000],
     [8181/10000, 8289/10000, 8367/10000, 4207/5000, 8427/10000, 2101/2500, 8337/10000, 8223/10000, 1611/2000],
     [4119/5000, 207/250, 8307/10000, 4159/5000, 1039/1250, 8289/10000, 4123/5000, 409/500, 8091/10000]]]
  PR := [[[12111/10000, 12157/10000, 2429/2000, 6039/5000, 5977/5000, 471/400, 11539/10000, 5623/5000, 5449/5000],
     [13489/10000, 2701/2000, 6727/5000, 1667/1250, 13153/10000, 12907/10000, 3149/2500, 12219/10000, 11781/10000],
     [153/100, 192/125, 7653/5000, 15139/10000, 14861/10000, 14477/10000, 6993/5000, 13389/10000, 1587/1250],
     [17787/10000, 4517/2500, 1132/625, 8959/5000, 17493/10000, 16847/10000, 999/625, 3729/2500, 6839/5000],
     [21243/10000, 5509/2500, 1398/625, 1389/625, 21611/10000, 5139/2500, 477/250, 17227/10000, 3773/2500],
     [4847/2000, 6601/2500, 1729/625, 27917/10000, 13571/5000, 127/50, 22769/10000, 2427/1250, 15639/10000],
     [1793/625, 15267/5000, 15737/5000, 6289/2000, 30451/10000, 5711/2000, 25827/10000, 11203/5000, 371/200],
     [3547/1000, 17783/5000, 17627/5000, 34543/10000, 33449/10000, 16/5, 30207/10000, 28093/10000, 25717/10000],
     [4719/1250, 18649/5000, 36683/10000, 4489/1250, 17497/5000, 6787/2000, 32737/10000, 15701/5000, 3743/1250],
     [4843/1250, 38211/10000, 37601/10000, 7383/2000, 36159/10000, 17667/5000, 861/250, 8369/2500, 32447/10000]],
    [[1477/1000, 7483/5000, 3001/2000, 3721/2500, 14607/10000, 709/500, 13603/10000, 12879/10000, 3007/2500],
     [9521/5000, 3841/2000, 9579/5000, 18903/10000, 3689/2000, 3559/2000, 4239/2500, 3187/2000, 369/250],
     [5453/2500, 22081/10000, 11031/5000, 5439/2500, 2117/1000, 10161/5000, 1201/625, 17871/10000, 16327/10000],
     [11983/5000, 1541/625, 24877/10000, 1231/500, 2987/1250, 4547/2000, 4231/2000, 19199/10000, 16959/10000],
     [25861/10000, 27183/10000, 27803/10000, 13843/5000, 26839/10000, 25309/10000, 23141/10000, 817/400, 2167/1250],
     [26763/10000, 14737/5000, 31087/10000, 31461/10000, 7641/2500, 14237/5000, 25297/10000, 21261/10000, 419/250],
     [15169/5000, 2026/625, 3349/1000, 6697/2000, 32401/10000, 15157/5000, 5461/2000, 11769/5000, 19309/10000],
     [3547/1000, 17783/5000, 17627/5000, 34543/10000, 33449/10000, 16/5, 30207/10000, 28093/10000, 25717/10000],
     [4719/1250, 18649/5000, 36683/10000, 4489/1250, 17497/5000, 6787/2000, 32737/10000, 15701/5000, 3743/1250],
     [4843/1250, 38211/10000, 37601/10000, 7383/2000, 36159/10000, 17667/5000, 861/250, 8369/2500, 32447/10000]]]

/-- maps/axi5.py: axes 18, 19-20, 22-23; `WcMap` 25-65, `effMap` 67-106, `PRmap` 108-147;
defaults 12 ff., stall line 15; `alphaMap` default from `param_data`. -/
def axi5 : CTable where
  alpha := [0, 90]
  N := [2/5, 1/2, 3/5, 7/10, 4/5, 9/10, 19/20, 1, 21/20, 11/10]
  R := [1, 6/5, 7/5, 8/5, 9/5, 2, 11/5, 12/5, 13/5]
  dAlpha := 0
  dN := 1
  dR := 2
  stall := 1
  W := [[[4843/1000, 51909/10000, 55289/10000, 14641/2500, 61729/10000, 3239/500, 33857/5000, 2821/400, 18303/2500],
     [13623/2000, 892/125, 74477/10000, 38731/5000, 80313/10000, 41513/5000, 214/25, 88033/10000, 90323/10000],
     [17953/2000, 18571/2000, 4789/500, 19707/2000, 101121/10000, 6471/625, 105781/10000, 21571/2000, 1372/125],
     [110367/10000, 22849/2000, 23559/2000, 121017/10000, 123913/10000, 25297/2000, 64369/5000, 130679/10000, 66157/5000],
     [72957/5000, 151491/10000, 156401/10000, 3213/200, 164249/10000, 167213/10000, 169563/10000, 85661/5000, 34503/2000],
     [200347/10000, 210987/10000, 43987/2000, 227217/10000, 232879/10000, 236987/10000, 1917/80, 240887/10000, 120517/5000],
     [46557/2000, 15268/625, 253829/10000, 261447/10000, 267207/10000, 67799/2500, 273519/10000, 68573/2500, 274293/10000],
     [286553/10000, 290317/10000, 36691/1250, 148101/5000, 149177/5000, 30, 301159/10000, 301849/10000, 30209/1000],
     [152709/5000, 153511/5000, 308417/10000, 154803/5000, 62119/2000, 311387/10000, 77997/2500, 156201/5000, 62527/2000],
     [62813/2000, 157443/5000, 315601/10000, 316213/10000, 316723/10000, 317133/10000, 63489/2000, 317661/10000, 158891/5000]],
    [[83219/10000, 22061/2500, 23229/2500, 24307/2500, 25293/2500, 104747/10000, 107951/10000, 55393/5000, 113257/10000],
     [127911/10000, 331/25, 136433/10000, 140011/10000, 143141/10000, 36457/2500, 37021/2500, 149921/10000, 18919/1250],
     [155913/10000, 79979/5000, 163567/10000, 33349/2000, 169499/10000, 171837/10000, 43443/2500, 35063/2000, 176479/10000],
     [22087/1250, 22751/1250, 186663/10000, 11917/625, 194047/10000, 98403/5000, 24871/1250, 100279/5000, 201599/10000],
     [204281/10000, 42291/2000, 43519/2000, 222721/10000, 11343/500, 46009/2000, 232319/10000, 116863/5000, 58579/2500],
     [116149/5000, 121869/5000, 15827/625, 16301/625, 266557/10000, 270539/10000, 136433/5000, 136827/5000, 54731/2000],
     [12393/500, 259617/10000, 269293/10000, 34617/1250, 282621/10000, 71611/2500, 288521/10000, 72253/2500, 72253/2500],
     [286553/10000, 290317/10000, 36691/1250, 148101/5000, 149177/5000, 30, 301159/10000, 301849/10000, 30209/1000],
     [152709/5000, 153511/5000, 308417/10000, 154803/5000, 62119/2000, 311387/10000, 77997/2500, 156201/5000, 62527/2000],
     [62813/2000, 157443/5000, 315601/10000, 316213/10000, 316723/10000, 317133/10000, 63489/2000, 317661/10000, 158891/5000]]]
  eff := [[[6673/10000, 3491/5000, 721/1000, 367/500, 7349/10000, 901/1250, 6849/10000, 6177/10000, 509/1000],
     [3549/5000, 1463/2000, 7471/10000, 7553/10000, 151/200, 1489/2000, 7199/10000, 6759/10000, 3041/5000],
     [7399/10000, 7577/10000, 963/1250, 7771/10000, 777/1000, 769/1000, 3751/5000, 1793/2500, 6673/10000],
     [297/400, 7677/10000, 7867/10000, 1597/2000, 8019/10000, 3977/5000, 969/1250, 3683/5000, 6757/10000],
     [7489/10000, 7833/10000, 8103/10000, 8287/10000, 2093/2500, 4169/5000, 8141/10000, 3861/5000, 7033/10000],
     [3569/5000, 7681/10000, 203/250, 211/250, 8617/10000, 539/625, 839/1000, 313/400, 6847/10000],
     [7111/10000, 7667/10000, 2029/2500, 8443/10000, 4313/5000, 4319/5000, 1051/1250, 7849/10000, 6883/10000],
     [8151/10000, 4153/5000, 1053/1250, 17/20, 853/1000, 851/1000, 8427/10000, 1033/1250, 8013/10000],
     [8267/10000, 8319/10000, 8353/10000, 837/1000, 523/625, 4173/5000, 8299/10000, 4111/5000, 8113/10000],
     [409/500, 8199/10000, 8209/10000, 513/625, 8197/10000, 511/625, 8141/10000, 8091/10000, 1003/1250]],
    [[6837/10000, 3613/5000, 7527/10000, 1931/2500, 487/625, 963/1250, 3693/5000, 3371/5000, 5669/10000],
     [7499/10000, 3893/5000, 4003/5000, 8151/10000, 4103/5000, 8157/10000, 7963/10000, 3787/5000, 6949/10000],
     [3929/5000, 8079/10000, 8249/10000, 4179/5000, 8401/10000, 4183/5000, 2057/2500, 1989/2500, 941/1250],
     [488/625, 8089/10000, 2077/2500, 8457/10000, 341/400, 4251/5000, 1671/2000, 2011/2500, 7541/10000],
     [3833/5000, 8027/10000, 1039/1250, 8513/10000, 1077/1250, 4303/5000, 8441/10000, 807/1000, 466/625],
     [7119/10000, 959/1250, 8119/10000, 1689/2000, 4313/5000, 4319/5000, 8409/10000, 1963/2500, 6891/10000],
     [7053/10000, 951/1250, 1007/1250, 8381/10000, 8561/10000, 857/1000, 8339/10000, 7781/10000, 3411/5000],
     [8151/10000, 4153/5000, 1053/1250, 17/20, 853/1000, 851/1000, 8427/10000, 1033/1250, 8013/10000],
     [8267/10000, 8319/10000, 8353/10000, 837/1000, 523/625, 4173/5000, 8299/10000, 4111/5000, 8113/10000],
     [409/500, 8199/10000, 8209/10000, 513/625, 8197/10000, 511/625, 8141/10000, 8091/10000, 1003/1250]]]
  PR := [[[12763/10000, 159/125, 12629/10000, 1249/1000, 6153/5000, 3019/2500, 2949/2500, 573/500, 692/625],
     [731/500, 363/250, 3591/2500, 1769/1250, 868/625, 13573/10000, 13201/10000, 6383/5000, 6137/5000],
     [17279/10000, 17111/10000, 16871/10000, 16561/10000, 3237/2000, 15747/10000, 15237/10000, 14651/10000, 2799/2000],
     [17/8, 10531/5000, 20723/10000, 20239/10000, 1226/625, 3773/2000, 17973/10000, 8467/5000, 15771/10000],
     [28737/10000, 28679/10000, 707/250, 27549/10000, 5301/2000, 1007/400, 23541/10000, 5401/2500, 2429/1250],
     [41211/10000, 847/200, 21251/5000, 20829/5000, 39861/10000, 18601/5000, 33667/10000, 29333/10000, 6123/2500],
     [48577/10000, 2513/500, 6331/1250, 1243/250, 1901/400, 11047/2500, 19851/5000, 34187/10000, 14029/5000],
     [59603/10000, 2357/400, 14451/2500, 28129/5000, 54313/10000, 26/5, 49289/10000, 23083/5000, 42701/10000],
     [12587/2000, 30937/5000, 7579/1250, 29609/5000, 28821/5000, 27957/5000, 27007/5000, 5193/1000, 24839/5000],
     [6439/1000, 15831/2500, 31081/5000, 15227/2500, 3723/625, 11629/2000, 56627/10000, 13751/2500, 13321/2500]],
    [[17567/10000, 17543/10000, 8679/5000, 2127/1250, 4131/2500, 1589/1000, 15103/10000, 14157/10000, 6539/5000],
     [24783/10000, 2461/1000, 12107/5000, 11801/5000, 22787/10000, 2723/1250, 20579/10000, 19167/10000, 3517/2000],
     [29457/10000, 729/250, 358/125, 27907/10000, 6743/2500, 25851/10000, 1533/625, 4599/2000, 2661/1250],
     [34221/10000, 6809/2000, 16757/5000, 32639/10000, 31441/10000, 5989/2000, 7033/2500, 12999/5000, 23609/10000],
     [4079/1000, 40961/10000, 40527/10000, 79/20, 7583/2000, 1791/500, 33193/10000, 30047/10000, 26517/10000],
     [48443/10000, 50097/10000, 12617/2500, 9907/2000, 947/200, 8807/2000, 39581/10000, 34109/10000, 3503/1250],
     [52659/10000, 3416/625, 2759/500, 54201/10000, 3236/625, 24023/5000, 43011/10000, 36821/10000, 749/250],
     [59603/10000, 2357/400, 14451/2500, 28129/5000, 54313/10000, 26/5, 49289/10000, 23083/5000, 42701/10000],
     [12587/2000, 30937/5000, 7579/1250, 29609/5000, 28821/5000, 27957/5000, 27007/5000, 5193/1000, 24839/5000],
     [6439/1000, 15831/2500, 31081/5000, 15227/2500, 3723/625, 11629/2000, 56627/10000, 13751/2500, 13321/2500]]]

/-- maps/ncp01.py: axes 16, 17, 18; `WcMap` 23-44, `effMap` 46-67, `PRmap` 69-90;
defaults 11 ff., stall line 13; `alphaMap` default from `param_data`. -/
def ncp01 : CTable where
  alpha := [0, 90]
  N := [1/2, 3/5, 7/10, 4/5, 17/20, 9/10, 19/20, 1, 21/20, 11/10, 23/20]
  R := [1, 6/5, 7/5, 8/5, 9/5, 2, 11/5, 12/5, 13/5, 14/5, 3, 16/5]
  dAlpha := 0
  dN := 1
  dR := 2
  stall := 1
  W := [[[451633/400, 6294237/5000, 13821909/10000, 936649/625, 16077749/10000, 17092917/10000, 3605733/2000, 9441897/5000, 19656499/10000, 10173369/5000, 2095469/1000, 10740613/5000],
     [2793809/2000, 3866737/2500, 8428153/5000, 1133181/625, 19285979/10000, 10159409/5000, 106139/50, 22012161/10000, 5668537/2500, 23216023/10000, 1477587/625, 5988797/2500],
     [4090893/2500, 18160977/10000, 19773179/10000, 21192051/10000, 22413333/10000, 11718207/5000, 24263811/10000, 12450427/5000, 12677793/5000, 320483/125, 12880813/5000, 25769243/10000],
     [4710191/2500, 10495117/5000, 1142391/500, 3050589/1250, 25659761/10000, 13309663/5000, 27295161/10000, 6925957/2500, 6966643/2500, 27871653/10000, 27871653/10000, 27871653/10000],
     [4098601/2000, 11348677/5000, 24565759/10000, 5218417/2000, 13639601/5000, 1406921/500, 7171847/2500, 14474497/5000, 28980327/10000, 28980327/10000, 28980327/10000, 28980327/10000],
     [22883171/10000, 12462931/5000, 26623203/10000, 13987521/5000, 3623681/1250, 29681807/10000, 1879559/625, 6037707/2000, 6037707/2000, 6037707/2000, 6037707/2000, 6037707/2000],
     [25626401/10000, 27330469/10000, 14361083/5000, 29806609/10000, 15297499/5000, 1943958/625, 15675631/5000, 31384663/10000, 31384663/10000, 31384663/10000, 31384663/10000, 31384663/10000],
     [2769667/1000, 14549767/5000, 30220933/10000, 31069241/10000, 7914223/2500, 6399999/2000, 16058407/5000, 32117039/10000, 32117039/10000, 32117039/10000, 32117039/10000, 32117039/10000],
     [29546721/10000, 15283441/5000, 15689679/5000, 15995757/5000, 6482561/2000, 32654429/10000, 32728789/10000, 32728789/10000, 32728789/10000, 32728789/10000, 32728789/10000, 32728789/10000],
     [3130179/1000, 31952559/10000, 16234911/5000, 8214613/2500, 16562191/5000, 33274097/10000, 33314949/10000, 33314949/10000, 33314949/10000, 33314949/10000, 33314949/10000, 33314949/10000],
     [32756797/10000, 33104507/10000, 33383101/10000, 33595127/10000, 4217857/1250, 3382917/1000, 8464181/2500, 8464181/2500, 8464181/2500, 8464181/2500, 8464181/2500, 8464181/2500]],
    [[451633/400, 6294237/5000, 13821909/10000, 936649/625, 16077749/10000, 17092917/10000, 3605733/2000, 9441897/5000, 19656499/10000, 10173369/5000, 2095469/1000, 10740613/5000],
     [2793809/2000, 3866737/2500, 8428153/5000, 1133181/625, 19285979/10000, 10159409/5000, 106139/50, 22012161/10000, 5668537/2500, 23216023/10000, 1477587/625, 5988797/2500],
     [4090893/2500, 18160977/10000, 19773179/10000, 21192051/10000, 22413333/10000, 11718207/5000, 24263811/10000, 12450427/5000, 12677793/5000, 320483/125, 12880813/5000, 25769243/10000],
     [4710191/2500, 10495117/5000, 1142391/500, 3050589/1250, 25659761/10000, 13309663/5000, 27295161/10000, 6925957/2500, 6966643/2500, 27871653/10000, 27871653/10000, 27871653/10000],
     [4098601/2000, 11348677/5000, 24565759/10000, 5218417/2000, 13639601/5000, 1406921/500, 7171847/2500, 14474497/5000, 28980327/10000, 28980327/10000, 28980327/10000, 28980327/10000],
     [22883171/10000, 12462931/5000, 26623203/10000, 13987521/5000, 3623681/1250, 29681807/10000, 1879559/625, 6037707/2000, 6037707/2000, 6037707/2000, 6037707/2000, 6037707/2000],
     [25626401/10000, 27330469/10000, 14361083/5000, 29806609/10000, 15297499/5000, 1943958/625, 15675631/5000, 31384663/10000, 31384663/10000, 31384663/10000, 31384663/10000, 31384663/10000],
     [2769667/1000, 14549767/5000, 30220933/10000, 31069241/10000, 7914223/2500, 6399999/2000, 16058407/5000, 32117039/10000, 32117039/10000, 32117039/10000, 32117039/10000, 32117039/10000],
     [29546721/10000, 15283441/5000, 15689679/5000, 15995757/5000, 6482561/2000, 32654429/10000, 32728789/10000, 32728789/10000, 32728789/10000, 32728789/10000, 32728789/10000, 32728789/10000],
     [3130179/1000, 31952559/10000, 16234911/5000, 8214613/2500, 16562191/5000, 33274097/10000, 33314949/10000, 33314949/10000, 33314949/10000, 33314949/10000, 33314949/10000, 33314949/10000],
     [32756797/10000, 33104507/10000, 33383101/10000, 33595127/10000, 4217857/1250, 3382917/1000, 8464181/2500, 8464181/2500, 8464181/2500, 8464181/2500, 8464181/2500, 8464181/2500]]]
  eff := [[[79/100, 8409/10000, 1767/2000, 229/250, 117/125, 9401/10000, 9257/10000, 4447/5000, 8233/10000, 447/625, 5453/10000, 349/1250],
     [483/625, 4149/5000, 1097/1250, 9141/10000, 1171/1250, 9421/10000, 9271/10000, 1777/2000, 8179/10000, 3513/5000, 5223/10000, 97/400],
     [7237/10000, 1593/2000, 8579/10000, 9053/10000, 1169/1250, 1179/1250, 1157/1250, 1097/1250, 3941/5000, 1281/2000, 4067/10000, 19/500],
     [3427/5000, 1541/2000, 8423/10000, 4489/5000, 9331/10000, 9431/10000, 9239/10000, 4351/5000, 7703/10000, 3029/5000, 1737/5000, 0],
     [7003/10000, 488/625, 8483/10000, 9001/10000, 9327/10000, 4709/5000, 9243/10000, 8763/10000, 3941/5000, 6463/10000, 4299/10000, 1059/10000],
     [1889/2500, 4089/5000, 2173/2500, 227/250, 4659/5000, 9379/10000, 578/625, 8907/10000, 1661/2000, 3689/5000, 3017/5000, 4147/10000],
     [8143/10000, 8549/10000, 4439/5000, 114/125, 4631/5000, 929/1000, 9201/10000, 8991/10000, 8639/10000, 8121/10000, 1481/2000, 6453/10000],
     [8431/10000, 8697/10000, 8909/10000, 9059/10000, 4571/5000, 183/200, 9081/10000, 1117/1250, 544/625, 8373/10000, 991/1250, 7353/10000],
     [8613/10000, 439/500, 8909/10000, 4499/5000, 4521/5000, 9037/10000, 1123/1250, 2221/2500, 8731/10000, 8519/10000, 8243/10000, 7893/10000],
     [1087/1250, 1757/2000, 8851/10000, 2223/2500, 2227/2500, 556/625, 1107/1250, 8791/10000, 8697/10000, 8573/10000, 526/625, 4111/5000],
     [2161/2500, 217/250, 544/625, 2179/2500, 4357/5000, 8699/10000, 867/1000, 8629/10000, 343/400, 8507/10000, 1053/1250, 4163/5000]],
    [[79/100, 8409/10000, 1767/2000, 229/250, 117/125, 9401/10000, 9257/10000, 4447/5000, 8233/10000, 447/625, 5453/10000, 349/1250],
     [483/625, 4149/5000, 1097/1250, 9141/10000, 1171/1250, 9421/10000, 9271/10000, 1777/2000, 8179/10000, 3513/5000, 5223/10000, 97/400],
     [7237/10000, 1593/2000, 8579/10000, 9053/10000, 1169/1250, 1179/1250, 1157/1250, 1097/1250, 3941/5000, 1281/2000, 4067/10000, 19/500],
     [3427/5000, 1541/2000, 8423/10000, 4489/5000, 9331/10000, 9431/10000, 9239/10000, 4351/5000, 7703/10000, 3029/5000, 1737/5000, 0],
     [7003/10000, 488/625, 8483/10000, 9001/10000, 9327/10000, 4709/5000, 9243/10000, 8763/10000, 3941/5000, 6463/10000, 4299/10000, 1059/10000],
     [1889/2500, 4089/5000, 2173/2500, 227/250, 4659/5000, 9379/10000, 578/625, 8907/10000, 1661/2000, 3689/5000, 3017/5000, 4147/10000],
     [8143/10000, 8549/10000, 4439/5000, 114/125, 4631/5000, 929/1000, 9201/10000, 8991/10000, 8639/10000, 8121/10000, 1481/2000, 6453/10000],
     [8431/10000, 8697/10000, 8909/10000, 9059/10000, 4571/5000, 183/200, 9081/10000, 1117/1250, 544/625, 8373/10000, 991/1250, 7353/10000],
     [8613/10000, 439/500, 8909/10000, 4499/5000, 4521/5000, 9037/10000, 1123/1250, 2221/2500, 8731/10000, 8519/10000, 8243/10000, 7893/10000],
     [1087/1250, 1757/2000, 8851/10000, 2223/2500, 2227/2500, 556/625, 1107/1250, 8791/10000, 8697/10000, 8573/10000, 526/625, 4111/5000],
     [2161/2500, 217/250, 544/625, 2179/2500, 4357/5000, 8699/10000, 867/1000, 8629/10000, 343/400, 8507/10000, 1053/1250, 4163/5000]]]
  PR := [[[11119/10000, 11119/10000, 5549/5000, 5529/5000, 5499/5000, 10919/10000, 5411/5000, 10711/10000, 5293/5000, 5223/5000, 2573/2500, 81/80],
     [5811/5000, 5819/5000, 11621/10000, 1157/1000, 11487/10000, 2843/2500, 2807/2500, 553/500, 10869/10000, 2131/2000, 521/500, 2541/2500],
     [3043/2500, 12249/10000, 6133/5000, 12221/10000, 2423/2000, 239/200, 11733/10000, 11471/10000, 698/625, 433/400, 10447/10000, 2007/2000],
     [6429/5000, 3259/2500, 6557/5000, 1309/1000, 2593/2000, 6371/5000, 12433/10000, 3013/2500, 5803/5000, 11099/10000, 10537/10000, 1],
     [267/200, 13543/10000, 3407/2500, 13603/10000, 13467/10000, 1653/1250, 12887/10000, 6237/5000, 2997/2500, 5719/5000, 1083/1000, 5087/5000],
     [563/400, 7107/5000, 7129/5000, 3551/2500, 2811/2000, 13813/10000, 13489/10000, 6549/5000, 12643/10000, 12131/10000, 11567/10000, 10957/10000],
     [2983/2000, 14971/10000, 2991/2000, 14869/10000, 1839/1250, 14487/10000, 7101/5000, 13867/10000, 2697/2000, 6529/5000, 12591/10000, 6043/5000],
     [15579/10000, 15567/10000, 15503/10000, 7693/5000, 7609/5000, 3/2, 7369/5000, 14439/10000, 7053/5000, 13739/10000, 13341/10000, 6457/5000],
     [2023/1250, 16123/10000, 2003/1250, 993/625, 15717/10000, 1551/1000, 15273/10000, 1501/1000, 7361/5000, 1441/1000, 3519/2500, 343/250],
     [4187/2500, 3331/2000, 8269/5000, 16399/10000, 8119/5000, 8027/5000, 3963/2500, 15633/10000, 15399/10000, 303/200, 7443/5000, 913/625],
     [2153/1250, 8561/5000, 1063/625, 8441/5000, 2093/1250, 3319/2000, 8217/5000, 8133/5000, 16089/10000, 994/625, 15711/10000, 1551/1000]],
    [[11119/10000, 11119/10000, 5549/5000, 5529/5000, 5499/5000, 10919/10000, 5411/5000, 10711/10000, 5293/5000, 5223/5000, 2573/2500, 81/80],
     [5811/5000, 5819/5000, 11621/10000, 1157/1000, 11487/10000, 2843/2500, 2807/2500, 553/500, 10869/10000, 2131/2000, 521/500, 2541/2500],
     [3043/2500, 12249/10000, 6133/5000, 12221/10000, 2423/2000, 239/200, 11733/10000, 11471/10000, 698/625, 433/400, 10447/10000, 2007/2000],
     [6429/5000, 3259/2500, 6557/5000, 1309/1000, 2593/2000, 6371/5000, 12433/10000, 3013/2500, 5803/5000, 11099/10000, 10537/10000, 1],
     [267/200, 13543/10000, 3407/2500, 13603/10000, 13467/10000, 1653/1250, 12887/10000, 6237/5000, 2997/2500, 5719/5000, 1083/1000, 5087/5000],
     [563/400, 7107/5000, 7129/5000, 3551/2500, 2811/2000, 13813/10000, 13489/10000, 6549/5000, 12643/10000, 12131/10000, 11567/10000, 10957/10000],
     [2983/2000, 14971/10000, 2991/2000, 14869/10000, 1839/1250, 14487/10000, 7101/5000, 13867/10000, 2697/2000, 6529/5000, 12591/10000, 6043/5000],
     [15579/10000, 15567/10000, 15503/10000, 7693/5000, 7609/5000, 3/2, 7369/5000, 14439/10000, 7053/5000, 13739/10000, 13341/10000, 6457/5000],
     [2023/1250, 16123/10000, 2003/1250, 993/625, 15717/10000, 1551/1000, 15273/10000, 1501/1000, 7361/5000, 1441/1000, 3519/2500, 343/250],
     [4187/2500, 3331/2000, 8269/5000, 16399/10000, 8119/5000, 8027/5000, 3963/2500, 15633/10000, 15399/10000, 303/200, 7443/5000, 913/625],
     [2153/1250, 8561/5000, 1063/625, 8441/5000, 2093/1250, 3319/2000, 8217/5000, 8133/5000, 16089/10000, 994/625, 15711/10000, 1551/1000]]]

/-- maps/HPT_map.py: axes 16, 17, 18; `WpMap` 33-44, `effMap` 20-31; `alphaMap` default from `param_data`. -/
def HPTMap : TTable where
  alpha := [1, 2]
  N := [60, 70, 80, 90, 100, 110]
  PR := [3, 13/4, 7/2, 15/4, 4, 17/4, 9/2, 19/4, 5, 21/4, 11/2, 23/4, 6, 25/4, 13/2, 27/4, 7, 29/4, 15/2, 8]
  dAlpha := 1
  dN := 100
  dPR := 6
  W := [[[1268/125, 1268/125, 1268/125, 1268/125, 1268/125, 1268/125, 1268/125, 1268/125, 1268/125, 1268/125, 1268/125, 1268/125, 1268/125, 1268/125, 1268/125, 1268/125, 1268/125, 1268/125, 1268/125, 1268/125],
     [2029/200, 2029/200, 2029/200, 2029/200, 2029/200, 2029/200, 2029/200, 2029/200, 2029/200, 2029/200, 2029/200, 2029/200, 2029/200, 2029/200, 2029/200, 2029/200, 2029/200, 2029/200, 2029/200, 2029/200],
     [5073/500, 5073/500, 5073/500, 5073/500, 5073/500, 5073/500, 5073/500, 5073/500, 5073/500, 5073/500, 5073/500, 5073/500, 5073/500, 5073/500, 5073/500, 5073/500, 5073/500, 5073/500, 5073/500, 5073/500],
     [10147/1000, 10147/1000, 10147/1000, 10147/1000, 10147/1000, 10147/1000, 10147/1000, 10147/1000, 10147/1000, 10147/1000, 10147/1000, 10147/1000, 10147/1000, 10147/1000, 10147/1000, 10147/1000, 10147/1000, 10147/1000, 10147/1000, 10147/1000],
     [2537/250, 2537/250, 2537/250, 2537/250, 2537/250, 2537/250, 2537/250, 2537/250, 2537/250, 2537/250, 2537/250, 2537/250, 2537/250, 2537/250, 2537/250, 2537/250, 2537/250, 2537/250, 2537/250, 2537/250],
     [10149/1000, 10149/1000, 10149/1000, 10149/1000, 10149/1000, 10149/1000, 10149/1000, 10149/1000, 10149/1000, 10149/1000, 10149/1000, 10149/1000, 10149/1000, 10149/1000, 10149/1000, 10149/1000, 10149/1000, 10149/1000, 10149/1000, 10149/1000]],
    [[6733/500, 6797/500, 137/10, 1379/100, 13867/1000, 6967/500, 13993/1000, 2809/200, 3523/250, 7067/500, 3543/250, 7103/500, 7119/500, 14267/1000, 7147/500, 14319/1000, 7171/500, 14363/1000, 1798/125, 721/50],
     [332/25, 13393/1000, 1686/125, 1696/125, 13637/1000, 1712/125, 13749/1000, 3449/250, 6919/500, 111/8, 13909/1000, 13941/1000, 13969/1000, 2799/200, 701/50, 7021/500, 14063/1000, 14083/1000, 14101/1000, 7067/500],
     [13341/1000, 6721/500, 6763/500, 13597/1000, 6829/500, 13711/1000, 6879/500, 69/5, 13837/1000, 13871/1000, 13901/1000, 13929/1000, 2791/200, 6989/500, 14, 701/50, 14039/1000, 1757/125, 14073/1000, 14103/1000],
     [679/50, 13669/1000, 1718/125, 1726/125, 6931/500, 1391/100, 1744/125, 13989/1000, 7011/500, 3513/250, 14079/1000, 1763/125, 14127/1000, 3537/250, 14167/1000, 2837/200, 7101/500, 14217/1000, 1779/125, 14259/1000],
     [13947/1000, 14027/1000, 7047/500, 14151/1000, 71/5, 7121/500, 14279/1000, 14313/1000, 7171/500, 14369/1000, 14393/1000, 2883/200, 3609/250, 7227/500, 1809/125, 1811/125, 14503/1000, 14517/1000, 1453/100, 14553/1000],
     [14409/1000, 14481/1000, 14541/1000, 14591/1000, 2927/200, 14673/1000, 7353/500, 1842/125, 14763/1000, 7393/500, 1851/125, 3707/250, 7423/500, 14863/1000, 7439/500, 3723/250, 7453/500, 7459/500, 1493/100, 14951/1000]]]
  eff := [[[8449/10000, 4197/5000, 4179/5000, 833/1000, 4153/5000, 1657/2000, 4121/5000, 8201/10000, 8163/10000, 508/625, 4047/5000, 8063/10000, 4013/5000, 999/1250, 7959/10000, 991/1250, 7899/10000, 492/625, 3923/5000, 3899/5000],
     [8801/10000, 8767/10000, 8743/10000, 8723/10000, 4349/5000, 8659/10000, 4311/5000, 8589/10000, 8557/10000, 213/250, 106/125, 8443/10000, 1051/1250, 1047/1250, 1669/2000, 2079/2500, 518/625, 4131/5000, 8233/10000, 4089/5000],
     [1129/1250, 9013/10000, 8997/10000, 4491/5000, 179/200, 223/250, 2223/2500, 4433/5000, 8823/10000, 549/625, 8747/10000, 8713/10000, 217/250, 173/200, 8621/10000, 8589/10000, 8557/10000, 8527/10000, 8499/10000, 4223/5000],
     [9177/10000, 1833/2000, 1831/2000, 457/500, 4559/5000, 9097/10000, 9077/10000, 9041/10000, 4501/5000, 4483/5000, 8933/10000, 8901/10000, 8871/10000, 221/250, 4403/5000, 4387/5000, 8743/10000, 4357/5000, 8687/10000, 1727/2000],
     [9253/10000, 578/625, 2311/2500, 1847/2000, 4611/5000, 921/1000, 9191/10000, 4577/5000, 114/125, 9087/10000, 9057/10000, 2257/2500, 4499/5000, 8963/10000, 8931/10000, 89/100, 8871/10000, 8843/10000, 551/625, 8767/10000],
     [9277/10000, 9279/10000, 116/125, 9279/10000, 371/400, 9271/10000, 2313/2500, 461/500, 9189/10000, 229/250, 9133/10000, 9107/10000, 4537/5000, 4521/5000, 9011/10000, 4491/5000, 4477/5000, 8927/10000, 4451/5000, 4427/5000]],
    [[1787/5000, 1721/5000, 333/1000, 1617/5000, 3151/10000, 3077/10000, 3011/10000, 369/1250, 2899/10000, 2851/10000, 2807/10000, 1383/5000, 2729/10000, 1347/5000, 1331/5000, 2633/10000, 521/2000, 1289/5000, 1277/5000, 2509/10000],
     [3561/10000, 3431/10000, 3321/10000, 1613/5000, 3143/10000, 307/1000, 601/2000, 1473/5000, 1447/5000, 1423/5000, 1401/5000, 1381/5000, 109/400, 269/1000, 2659/10000, 2629/10000, 2601/10000, 103/400, 2551/10000, 1253/5000],
     [1771/5000, 683/2000, 3307/10000, 3213/10000, 783/2500, 3059/10000, 599/2000, 1469/5000, 577/2000, 1419/5000, 559/2000, 551/2000, 1359/5000, 671/2500, 2653/10000, 2623/10000, 649/2500, 257/1000, 1273/5000, 2501/10000],
     [3519/10000, 679/2000, 3289/10000, 3197/10000, 3117/10000, 1523/5000, 2983/10000, 1463/5000, 23/80, 707/2500, 557/2000, 1373/5000, 271/1000, 669/2500, 529/2000, 327/1250, 2589/10000, 2563/10000, 2539/10000, 499/2000],
     [3491/10000, 3371/10000, 817/2500, 1589/5000, 31/100, 3031/10000, 2969/10000, 2913/10000, 1431/5000, 176/625, 1387/5000, 547/2000, 27/100, 2667/10000, 659/2500, 2607/10000, 129/500, 511/2000, 2531/10000, 2487/10000],
     [3459/10000, 3343/10000, 3243/10000, 789/2500, 77/250, 753/2500, 369/1250, 2897/10000, 178/625, 1401/5000, 2761/10000, 2723/10000, 168/625, 531/2000, 21/80, 2597/10000, 257/1000, 509/2000, 1261/5000, 2479/10000]]]

/-- maps/LPT_map.py: axes 17, 18, 19; `WpMap` 36-49, `effMap` 21-34; `alphaMap` default from `param_data`. -/
def LPTMap : TTable where
  alpha := [1, 2]
  N := [60, 70, 80, 90, 100, 110, 120]
  PR := [3, 13/4, 7/2, 15/4, 4, 17/4, 9/2, 19/4, 5, 21/4, 11/2, 23/4, 6, 25/4, 13/2, 27/4, 7, 29/4, 15/2, 8]
  dAlpha := 1
  dN := 100
  dPR := 6
  W := [[[35883/1000, 35897/1000, 35897/1000, 35897/1000, 35897/1000, 35897/1000, 35897/1000, 35897/1000, 35897/1000, 35897/1000, 35897/1000, 35897/1000, 35897/1000, 35897/1000, 35897/1000, 35897/1000, 35897/1000, 35897/1000, 35897/1000, 35897/1000],
     [4464/125, 8949/250, 17917/500, 35843/1000, 35843/1000, 35843/1000, 35843/1000, 35843/1000, 35843/1000, 35843/1000, 35843/1000, 35843/1000, 35843/1000, 35843/1000, 35843/1000, 35843/1000, 35843/1000, 35843/1000, 35843/1000, 35843/1000],
     [35459/1000, 35571/1000, 35641/1000, 35683/1000, 17853/500, 35717/1000, 35721/1000, 35721/1000, 35721/1000, 35721/1000, 35721/1000, 35721/1000, 35721/1000, 35721/1000, 35721/1000, 35721/1000, 35721/1000, 35721/1000, 35721/1000, 35721/1000],
     [35233/1000, 17673/500, 35423/1000, 1419/40, 3551/100, 17767/500, 711/20, 889/25, 35567/1000, 35571/1000, 17787/500, 1423/40, 4447/125, 4447/125, 4447/125, 4447/125, 4447/125, 4447/125, 4447/125, 4447/125],
     [34957/1000, 35057/1000, 17563/500, 1407/40, 3521/100, 7047/200, 35253/1000, 17633/500, 1411/40, 17641/500, 4411/125, 8823/250, 7059/200, 35297/1000, 35299/1000, 35301/1000, 17651/500, 17651/500, 35303/1000, 35303/1000],
     [868/25, 174/5, 6971/200, 17447/500, 34921/1000, 34941/1000, 8739/250, 34967/1000, 17487/500, 1749/50, 4373/125, 34987/1000, 3499/100, 34991/1000, 4374/125, 4374/125, 4374/125, 4374/125, 4374/125, 4374/125],
     [8611/250, 34501/1000, 34539/1000, 17283/500, 6917/200, 17299/500, 34607/1000, 34613/1000, 17309/500, 1731/50, 17311/500, 34623/1000, 34623/1000, 34623/1000, 34623/1000, 34623/1000, 34623/1000, 34623/1000, 34623/1000, 34623/1000]],
    [[41673/1000, 42421/1000, 5382/125, 21797/500, 5503/125, 8879/200, 44719/1000, 22501/500, 181/4, 4547/100, 5708/125, 45837/1000, 45991/1000, 369/8, 11561/250, 5794/125, 46449/1000, 5817/125, 9323/200, 46751/1000],
     [10409/250, 8453/200, 21403/500, 43273/1000, 21827/500, 21991/500, 44271/1000, 44527/1000, 8951/200, 44959/1000, 45141/1000, 22653/500, 9091/200, 11397/250, 45707/1000, 5727/125, 9183/200, 46007/1000, 46091/1000, 46239/1000],
     [5244/125, 42463/1000, 8581/200, 43291/1000, 43619/1000, 43893/1000, 5517/125, 5544/125, 22273/500, 44721/1000, 44879/1000, 22511/500, 5644/125, 5659/125, 45377/1000, 22737/500, 11391/250, 45647/1000, 45723/1000, 2293/50],
     [21249/500, 42901/1000, 10813/250, 21779/500, 10957/250, 11013/250, 5531/125, 22211/500, 2229/50, 22361/500, 897/20, 5621/125, 1803/40, 45173/1000, 5658/125, 5668/125, 45419/1000, 5686/125, 5694/125, 11417/250],
     [10757/250, 5417/125, 10901/250, 43839/1000, 22023/500, 44229/1000, 2219/50, 22257/500, 11159/250, 22373/500, 22423/500, 44937/1000, 2251/50, 45097/1000, 45167/1000, 5654/125, 45291/1000, 9069/200, 9079/200, 22743/500],
     [43553/1000, 2189/50, 43977/1000, 883/20, 22151/500, 44437/1000, 11139/250, 8931/200, 5593/125, 1793/40, 22449/500, 8993/200, 45027/1000, 45083/1000, 22567/500, 22591/500, 45227/1000, 45267/1000, 5663/125, 45371/1000],
     [1098/25, 44081/1000, 44219/1000, 44339/1000, 11111/250, 22269/500, 44621/1000, 22347/500, 8951/200, 44811/1000, 44861/1000, 44907/1000, 44949/1000, 44987/1000, 22511/500, 22527/500, 11271/250, 5639/125, 22569/500, 45183/1000]]]
  eff := [[[107/125, 2133/2500, 8497/10000, 8463/10000, 527/625, 4201/5000, 8371/10000, 8341/10000, 8313/10000, 518/625, 8263/10000, 103/125, 4107/5000, 2047/2500, 1633/2000, 4071/5000, 8121/10000, 8101/10000, 4041/5000, 4023/5000],
     [1771/2000, 8853/10000, 2211/2500, 552/625, 4409/5000, 8799/10000, 4391/5000, 2191/2500, 2187/2500, 4363/5000, 8703/10000, 4341/5000, 8661/10000, 4321/5000, 539/625, 4303/5000, 8589/10000, 8573/10000, 8557/10000, 8527/10000],
     [8983/10000, 2253/2500, 903/1000, 4521/5000, 9043/10000, 4521/5000, 9039/10000, 1807/2000, 451/500, 1801/2000, 8991/10000, 8977/10000, 2241/2500, 8951/10000, 4469/5000, 357/400, 8913/10000, 8901/10000, 889/1000, 2217/2500],
     [4487/5000, 4519/5000, 2271/2500, 114/125, 457/500, 2289/2500, 9169/10000, 2293/2500, 573/625, 2291/2500, 9159/10000, 9153/10000, 9147/10000, 457/500, 4567/5000, 9127/10000, 9121/10000, 4557/5000, 9107/10000, 1819/2000],
     [8851/10000, 1119/1250, 2257/2500, 9089/10000, 9131/10000, 1833/2000, 4597/5000, 9209/10000, 9217/10000, 4611/5000, 9227/10000, 923/1000, 9231/10000, 577/625, 577/625, 577/625, 9231/10000, 923/1000, 2307/2500, 369/400],
     [863/1000, 2193/2500, 4439/5000, 1793/2000, 903/1000, 9083/10000, 1141/1250, 229/250, 459/500, 9197/10000, 9211/10000, 9223/10000, 9233/10000, 9241/10000, 578/625, 4627/5000, 9259/10000, 579/625, 2317/2500, 4637/5000],
     [8323/10000, 2127/2500, 4323/5000, 8759/10000, 8851/10000, 8923/10000, 1797/2000, 9039/10000, 9071/10000, 9099/10000, 9123/10000, 1829/2000, 9163/10000, 9179/10000, 9193/10000, 4603/5000, 4609/5000, 2307/2500, 9237/10000, 9253/10000]],
    [[1889/5000, 3827/10000, 387/1000, 3907/10000, 1963/5000, 493/1250, 99/250, 1987/5000, 3987/10000, 3999/10000, 401/1000, 4021/10000, 403/1000, 4037/10000, 4043/10000, 253/625, 2027/5000, 4059/10000, 4063/10000, 509/1250],
     [3697/10000, 3753/10000, 3803/10000, 481/1250, 31/80, 3897/10000, 3917/10000, 787/2000, 3951/10000, 1983/5000, 199/500, 3993/10000, 2003/5000, 803/2000, 4023/10000, 4031/10000, 2019/5000, 809/2000, 4051/10000, 4063/10000],
     [3589/10000, 913/2500, 927/2500, 1879/5000, 3797/10000, 3823/10000, 3847/10000, 967/2500, 243/625, 1953/5000, 1961/5000, 1969/5000, 247/625, 793/2000, 159/400, 797/2000, 1997/5000, 2001/5000, 401/1000, 503/1250],
     [1729/5000, 3529/10000, 3591/10000, 729/2000, 739/2000, 233/625, 751/2000, 189/500, 1901/5000, 3823/10000, 1921/5000, 193/500, 969/2500, 973/2500, 1953/5000, 3917/10000, 491/1250, 3937/10000, 3947/10000, 991/2500],
     [3309/10000, 1693/5000, 1727/5000, 1757/5000, 3567/10000, 723/2000, 1823/5000, 1837/5000, 3699/10000, 1861/5000, 234/625, 941/2500, 1891/5000, 19/50, 477/1250, 3831/10000, 961/2500, 771/2000, 1933/5000, 777/2000],
     [1571/5000, 3227/10000, 33/100, 673/2000, 3423/10000, 869/2500, 44/125, 222/625, 179/500, 1803/5000, 363/1000, 913/2500, 3673/10000, 923/2500, 371/1000, 3727/10000, 3743/10000, 3757/10000, 377/1000, 237/625],
     [2953/10000, 3051/10000, 3131/10000, 3201/10000, 204/625, 83/250, 3371/10000, 683/2000, 3447/10000, 869/2500, 1751/5000, 3527/10000, 71/200, 3571/10000, 3591/10000, 3609/10000, 3627/10000, 911/2500, 3659/10000, 737/2000]]]

/-- maps/hpt1269.py: axes 15, 16, 17; `WpMap` 32-43, `effMap` 19-30; `alphaMap` default from `param_data`. -/
def hpt1269 : TTable where
  alpha := [1, 2]
  N := [60, 70, 80, 90, 100, 110]
  PR := [3, 13/4, 7/2, 15/4, 4, 17/4, 9/2, 19/4, 5, 21/4, 11/2, 23/4, 6, 25/4, 13/2, 27/4, 7, 29/4, 15/2, 8]
  dAlpha := 1
  dN := 100
  dPR := 6
  W := [[[15223/500, 30533/1000, 3821/125, 7643/250, 7643/250, 7643/250, 7643/250, 7643/250, 7643/250, 7643/250, 7643/250, 7643/250, 7643/250, 7643/250, 7643/250, 7643/250, 7643/250, 7643/250, 7643/250, 7643/250],
     [30299/1000, 30413/1000, 762/25, 7629/250, 30529/1000, 3053/100, 3053/100, 3053/100, 3053/100, 3053/100, 3053/100, 3053/100, 3053/100, 3053/100, 3053/100, 3053/100, 3053/100, 3053/100, 3053/100, 3053/100],
     [753/25, 30239/1000, 30317/1000, 3796/125, 15199/500, 6083/200, 30421/1000, 30421/1000, 30421/1000, 30421/1000, 30421/1000, 30421/1000, 30421/1000, 30421/1000, 30421/1000, 30421/1000, 30421/1000, 30421/1000, 30421/1000, 30421/1000],
     [15007/500, 7531/250, 30201/1000, 30253/1000, 3786/125, 30311/1000, 1213/40, 30333/1000, 30337/1000, 30337/1000, 30337/1000, 30337/1000, 30337/1000, 30337/1000, 30337/1000, 30337/1000, 30337/1000, 30337/1000, 30337/1000, 30337/1000],
     [3732/125, 7487/250, 30013/1000, 30059/1000, 30091/1000, 30113/1000, 3766/125, 30139/1000, 6029/200, 30149/1000, 603/20, 603/20, 603/20, 603/20, 603/20, 603/20, 603/20, 603/20, 603/20, 603/20],
     [29799/1000, 2987/100, 748/25, 5991/200, 29979/1000, 29997/1000, 30009/1000, 30017/1000, 30023/1000, 15013/500, 7507/250, 30029/1000, 30029/1000, 30029/1000, 30029/1000, 30029/1000, 30029/1000, 30029/1000, 30029/1000, 30029/1000]],
    [[15223/500, 30533/1000, 3821/125, 7643/250, 7643/250, 7643/250, 7643/250, 7643/250, 7643/250, 7643/250, 7643/250, 7643/250, 7643/250, 7643/250, 7643/250, 7643/250, 7643/250, 7643/250, 7643/250, 7643/250],
     [30299/1000, 30413/1000, 762/25, 7629/250, 30529/1000, 3053/100, 3053/100, 3053/100, 3053/100, 3053/100, 3053/100, 3053/100, 3053/100, 3053/100, 3053/100, 3053/100, 3053/100, 3053/100, 3053/100, 3053/100],
     [753/25, 30239/1000, 30317/1000, 3796/125, 15199/500, 6083/200, 30421/1000, 30421/1000, 30421/1000, 30421/1000, 30421/1000, 30421/1000, 30421/1000, 30421/1000, 30421/1000, 30421/1000, 30421/1000, 30421/1000, 30421/1000, 30421/1000],
     [15007/500, 7531/250, 30201/1000, 30253/1000, 3786/125, 30311/1000, 1213/40, 30333/1000, 30337/1000, 30337/1000, 30337/1000, 30337/1000, 30337/1000, 30337/1000, 30337/1000, 30337/1000, 30337/1000, 30337/1000, 30337/1000, 30337/1000],
     [3732/125, 7487/250, 30013/1000, 30059/1000, 30091/1000, 30113/1000, 3766/125, 30139/1000, 6029/200, 30149/1000, 603/20, 603/20, 603/20, 603/20, 603/20, 603/20, 603/20, 603/20, 603/20, 603/20],
     [29799/1000, 2987/100, 748/25, 5991/200, 29979/1000, 29997/1000, 30009/1000, 30017/1000, 30023/1000, 15013/500, 7507/250, 30029/1000, 30029/1000, 30029/1000, 30029/1000, 30029/1000, 30029/1000, 30029/1000, 30029/1000, 30029/1000]]]
  eff := [[[423/500, 1681/2000, 8349/10000, 1037/1250, 8249/10000, 4103/5000, 1633/2000, 8127/10000, 2023/2500, 403/500, 803/1000, 4001/5000, 997/1250, 7953/10000, 7931/10000, 7911/10000, 1973/2500, 63/80, 3929/5000, 3913/5000],
     [8879/10000, 4421/5000, 2201/2500, 8769/10000, 1747/2000, 8701/10000, 867/1000, 108/125, 4307/5000, 859/1000, 1071/1250, 2137/2500, 8529/10000, 8511/10000, 1699/2000, 8479/10000, 423/500, 2109/2500, 4207/5000, 8373/10000],
     [73/80, 9111/10000, 1137/1250, 4539/5000, 1811/2000, 4517/5000, 4507/5000, 1799/2000, 8979/10000, 2241/2500, 179/200, 1117/1250, 2231/2500, 8903/10000, 8877/10000, 8853/10000, 883/1000, 1101/1250, 8787/10000, 8749/10000],
     [2307/2500, 4621/5000, 37/40, 9247/10000, 231/250, 577/625, 1153/1250, 9217/10000, 921/1000, 9203/10000, 9197/10000, 2297/2500, 4581/5000, 9137/10000, 9113/10000, 9091/10000, 907/1000, 181/200, 9031/10000, 449/500],
     [1843/2000, 4629/5000, 9289/10000, 1163/1250, 9313/10000, 9319/10000, 9323/10000, 4663/5000, 583/625, 9329/10000, 933/1000, 9311/10000, 1161/1250, 4633/5000, 1849/2000, 369/400, 4603/5000, 2297/2500, 9161/10000, 9107/10000],
     [4553/5000, 1147/1250, 577/625, 9267/10000, 2323/2500, 582/625, 9327/10000, 467/500, 9351/10000, 9361/10000, 9369/10000, 9349/10000, 9329/10000, 9311/10000, 9293/10000, 2319/2500, 9259/10000, 9239/10000, 2303/2500, 9161/10000]],
    [[423/500, 1681/2000, 8349/10000, 1037/1250, 8249/10000, 4103/5000, 1633/2000, 8127/10000, 2023/2500, 403/500, 803/1000, 4001/5000, 997/1250, 7953/10000, 7931/10000, 7911/10000, 1973/2500, 63/80, 3929/5000, 3913/5000],
     [8879/10000, 4421/5000, 2201/2500, 8769/10000, 1747/2000, 8701/10000, 867/1000, 108/125, 4307/5000, 859/1000, 1071/1250, 2137/2500, 8529/10000, 8511/10000, 1699/2000, 8479/10000, 423/500, 2109/2500, 4207/5000, 8373/10000],
     [73/80, 9111/10000, 1137/1250, 4539/5000, 1811/2000, 4517/5000, 4507/5000, 1799/2000, 8979/10000, 2241/2500, 179/200, 1117/1250, 2231/2500, 8903/10000, 8877/10000, 8853/10000, 883/1000, 1101/1250, 8787/10000, 8749/10000],
     [2307/2500, 4621/5000, 37/40, 9247/10000, 231/250, 577/625, 1153/1250, 9217/10000, 921/1000, 9203/10000, 9197/10000, 2297/2500, 4581/5000, 9137/10000, 9113/10000, 9091/10000, 907/1000, 181/200, 9031/10000, 449/500],
     [1843/2000, 4629/5000, 9289/10000, 1163/1250, 9313/10000, 9319/10000, 9323/10000, 4663/5000, 583/625, 9329/10000, 933/1000, 9311/10000, 1161/1250, 4633/5000, 1849/2000, 369/400, 4603/5000, 2297/2500, 9161/10000, 9107/10000],
     [4553/5000, 1147/1250, 577/625, 9267/10000, 2323/2500, 582/625, 9327/10000, 467/500, 9351/10000, 9361/10000, 9369/10000, 9349/10000, 9329/10000, 9311/10000, 9293/10000, 2319/2500, 9259/10000, 9239/10000, 2303/2500, 9161/10000]]]

/-- maps/lpt2269.py: axes 17, 18, 19; `WpMap` 37-50, `effMap` 21-35; `alphaMap` default from `param_data`. -/
def lpt2269 : TTable where
  alpha := [1, 2]
  N := [60, 70, 80, 90, 100, 110, 120]
  PR := [3, 13/4, 7/2, 15/4, 4, 17/4, 9/2, 19/4, 5, 21/4, 11/2, 23/4, 6, 25/4, 13/2, 27/4, 7, 29/4, 15/2, 8]
  dAlpha := 1
  dN := 100
  dPR := 6
  W := [[[38453/250, 38453/250, 38453/250, 38453/250, 38453/250, 38453/250, 38453/250, 38453/250, 38453/250, 38453/250, 38453/250, 38453/250, 38453/250, 38453/250, 38453/250, 38453/250, 38453/250, 38453/250, 38453/250, 38453/250],
     [153511/1000, 153511/1000, 153511/1000, 153511/1000, 153511/1000, 153511/1000, 153511/1000, 153511/1000, 153511/1000, 153511/1000, 153511/1000, 153511/1000, 153511/1000, 153511/1000, 153511/1000, 153511/1000, 153511/1000, 153511/1000, 153511/1000, 153511/1000],
     [152799/1000, 76491/500, 38263/250, 153061/1000, 153061/1000, 153061/1000, 153061/1000, 153061/1000, 153061/1000, 153061/1000, 153061/1000, 153061/1000, 153061/1000, 153061/1000, 153061/1000, 153061/1000, 153061/1000, 153061/1000, 153061/1000, 153061/1000],
     [30199/200, 37829/250, 75759/500, 151647/1000, 151729/1000, 151781/1000, 75907/500, 75917/500, 75923/500, 37963/250, 18982/125, 75929/500, 151859/1000, 151859/1000, 151859/1000, 151859/1000, 151859/1000, 151859/1000, 151859/1000, 151859/1000],
     [148751/1000, 149107/1000, 149349/1000, 149517/1000, 29927/200, 149719/1000, 149779/1000, 74911/500, 37463/250, 18734/125, 29977/200, 74947/500, 74949/500, 149899/1000, 149899/1000, 149899/1000, 149899/1000, 149899/1000, 149899/1000, 149899/1000],
     [18169/125, 3642/25, 29181/200, 146061/1000, 146169/1000, 36561/250, 146293/1000, 36581/250, 146339/1000, 18293/125, 18293/125, 18293/125, 18293/125, 18293/125, 18293/125, 18293/125, 18293/125, 18293/125, 18293/125, 18293/125],
     [140863/1000, 141131/1000, 14131/100, 35357/250, 141503/1000, 141547/1000, 141567/1000, 141569/1000, 141569/1000, 141569/1000, 141569/1000, 141569/1000, 141569/1000, 141569/1000, 141569/1000, 141569/1000, 141569/1000, 141569/1000, 141569/1000, 141569/1000]],
    [[38453/250, 38453/250, 38453/250, 38453/250, 38453/250, 38453/250, 38453/250, 38453/250, 38453/250, 38453/250, 38453/250, 38453/250, 38453/250, 38453/250, 38453/250, 38453/250, 38453/250, 38453/250, 38453/250, 38453/250],
     [153511/1000, 153511/1000, 153511/1000, 153511/1000, 153511/1000, 153511/1000, 153511/1000, 153511/1000, 153511/1000, 153511/1000, 153511/1000, 153511/1000, 153511/1000, 153511/1000, 153511/1000, 153511/1000, 153511/1000, 153511/1000, 153511/1000, 153511/1000],
     [152799/1000, 76491/500, 38263/250, 153061/1000, 153061/1000, 153061/1000, 153061/1000, 153061/1000, 153061/1000, 153061/1000, 153061/1000, 153061/1000, 153061/1000, 153061/1000, 153061/1000, 153061/1000, 153061/1000, 153061/1000, 153061/1000, 153061/1000],
     [30199/200, 37829/250, 75759/500, 151647/1000, 151729/1000, 151781/1000, 75907/500, 75917/500, 75923/500, 37963/250, 18982/125, 75929/500, 151859/1000, 151859/1000, 151859/1000, 151859/1000, 151859/1000, 151859/1000, 151859/1000, 151859/1000],
     [148751/1000, 149107/1000, 149349/1000, 149517/1000, 29927/200, 149719/1000, 149779/1000, 74911/500, 37463/250, 18734/125, 29977/200, 74947/500, 74949/500, 149899/1000, 149899/1000, 149899/1000, 149899/1000, 149899/1000, 149899/1000, 149899/1000],
     [18169/125, 3642/25, 29181/200, 146061/1000, 146169/1000, 36561/250, 146293/1000, 36581/250, 146339/1000, 18293/125, 18293/125, 18293/125, 18293/125, 18293/125, 18293/125, 18293/125, 18293/125, 18293/125, 18293/125, 18293/125],
     [140863/1000, 141131/1000, 14131/100, 35357/250, 141503/1000, 141547/1000, 141567/1000, 141569/1000, 141569/1000, 141569/1000, 141569/1000, 141569/1000, 141569/1000, 141569/1000, 141569/1000, 141569/1000, 141569/1000, 141569/1000, 141569/1000, 141569/1000]]]
  eff := [[[2097/2500, 8309/10000, 4117/5000, 8159/10000, 8091/10000, 803/1000, 319/400, 1981/2500, 1969/2500, 979/1250, 7791/10000, 7753/10000, 7717/10000, 1921/2500, 1913/2500, 7623/10000, 1519/2000, 473/625, 3771/5000, 1499/2000],
     [4439/5000, 8813/10000, 1749/2000, 1737/2000, 8629/10000, 8577/10000, 533/625, 2121/2500, 8443/10000, 2101/2500, 523/625, 4167/5000, 4151/5000, 517/625, 4121/5000, 821/1000, 8179/10000, 163/200, 4061/5000, 8071/10000],
     [9201/10000, 572/625, 1821/2000, 9061/10000, 4509/5000, 4489/5000, 447/500, 1781/2000, 1109/1250, 221/250, 881/1000, 1097/1250, 8741/10000, 8707/10000, 2169/2500, 4323/5000, 4309/5000, 859/1000, 1713/2000, 2129/2500],
     [9381/10000, 117/125, 1167/1250, 931/1000, 9283/10000, 9257/10000, 9231/10000, 4603/5000, 4591/5000, 9153/10000, 9119/10000, 9087/10000, 566/625, 9027/10000, 8999/10000, 8973/10000, 2237/2500, 2231/2500, 8901/10000, 4429/5000],
     [9447/10000, 1891/2000, 591/625, 189/200, 118/125, 9429/10000, 9417/10000, 2351/2500, 9383/10000, 1871/2000, 9327/10000, 9301/10000, 2319/2500, 2313/2500, 9229/10000, 9207/10000, 4593/5000, 1833/2000, 4573/5000, 9099/10000],
     [1883/2000, 4727/5000, 9479/10000, 1899/2000, 594/625, 951/1000, 1189/1250, 9511/10000, 2373/2500, 592/625, 2363/2500, 9433/10000, 4707/5000, 2349/2500, 4689/5000, 9361/10000, 584/625, 4663/5000, 1163/1250, 4631/5000],
     [1859/2000, 4683/5000, 9419/10000, 4729/5000, 9487/10000, 9509/10000, 4763/5000, 4769/5000, 1191/1250, 9517/10000, 1901/2000, 9493/10000, 9481/10000, 2367/2500, 591/625, 2361/2500, 1179/1250, 9413/10000, 1879/2000, 117/125]],
    [[2097/2500, 8309/10000, 4117/5000, 8159/10000, 8091/10000, 803/1000, 319/400, 1981/2500, 1969/2500, 979/1250, 7791/10000, 7753/10000, 7717/10000, 1921/2500, 1913/2500, 7623/10000, 1519/2000, 473/625, 3771/5000, 1499/2000],
     [4439/5000, 8813/10000, 1749/2000, 1737/2000, 8629/10000, 8577/10000, 533/625, 2121/2500, 8443/10000, 2101/2500, 523/625, 4167/5000, 4151/5000, 517/625, 4121/5000, 821/1000, 8179/10000, 163/200, 4061/5000, 8071/10000],
     [9201/10000, 572/625, 1821/2000, 9061/10000, 4509/5000, 4489/5000, 447/500, 1781/2000, 1109/1250, 221/250, 881/1000, 1097/1250, 8741/10000, 8707/10000, 2169/2500, 4323/5000, 4309/5000, 859/1000, 1713/2000, 2129/2500],
     [9381/10000, 117/125, 1167/1250, 931/1000, 9283/10000, 9257/10000, 9231/10000, 4603/5000, 4591/5000, 9153/10000, 9119/10000, 9087/10000, 566/625, 9027/10000, 8999/10000, 8973/10000, 2237/2500, 2231/2500, 8901/10000, 4429/5000],
     [9447/10000, 1891/2000, 591/625, 189/200, 118/125, 9429/10000, 9417/10000, 2351/2500, 9383/10000, 1871/2000, 9327/10000, 9301/10000, 2319/2500, 2313/2500, 9229/10000, 9207/10000, 4593/5000, 1833/2000, 4573/5000, 9099/10000],
     [1883/2000, 4727/5000, 9479/10000, 1899/2000, 594/625, 951/1000, 1189/1250, 9511/10000, 2373/2500, 592/625, 2363/2500, 9433/10000, 4707/5000, 2349/2500, 4689/5000, 9361/10000, 584/625, 4663/5000, 1163/1250, 4631/5000],
     [1859/2000, 4683/5000, 9419/10000, 4729/5000, 9487/10000, 9509/10000, 4763/5000, 4769/5000, 1191/1250, 9517/10000, 1901/2000, 9493/10000, 9481/10000, 2367/2500, 591/625, 2361/2500, 1179/1250, 9413/10000, 1879/2000, 117/125]]]

/-- All compressor maps in pycycle/maps. -/
def compressors : List CTable := [FanMap, HPCMap, LPCMap, axi32, axi5, ncp01]

/-- All turbine maps in pycycle/maps. -/
def turbines : List TTable := [HPTMap, LPTMap, hpt1269, lpt2269]

end PyCycle.MapData
